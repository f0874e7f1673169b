import Verif.Lemmas.Fair
/-!
# What happens in a fair history
-/
set_option linter.unusedVariables false

namespace SL

theorem run_next {r : Nat} : ∀ (es es0 : List Event) {q : Req}, (World.init.run es0).reqs[r]? = some q → q.phase ≠ .start →
    ∃ q', ((World.init.run es0).run es).reqs[r]? = some q' ∧ q.Next q'
  | [], es0, q, hq, hb => ⟨q, hq, .refl hb⟩
  | e :: es, es0, q, hq, hb => by
    obtain ⟨q1, h1, h2, -⟩ := step_next hq (good_of ((worldOk es0).reqs r _ hq) hb) e
    have e1 : (World.init.run es0).step e = World.init.run (es0 ++ [e]) := by rw [world_run_append]; rfl
    rw [e1] at h1
    obtain ⟨q2, h3, h4⟩ := run_next es (es0 ++ [e]) h1 h2.begun
    refine ⟨q2, ?_, h2.trans h4⟩
    show (((World.init.run es0).step e).run es).reqs[r]? = some q2
    rw [e1]; exact h3

theorem run_gathering {w : World} {i : Nat} {x : Closer} {es : List Event} (hx : w.closers[i]? = some x) : ∃ y, (w.run es).closers[i]? = some y ∧ x.rank ≤ y.rank ∧
    ∀ l l', x = .gathering l → y = .gathering l' → l' = l := by
  induction es generalizing w x with
  | nil => exact ⟨x, hx, Nat.le_refl _, fun l l' h h' => by rw [h] at h'; cases h'; rfl⟩
  | cons e es ih =>
    obtain ⟨y, h1, h2⟩ := step_closes hx e
    obtain ⟨z, h3, h4, h5⟩ := ih h1
    refine ⟨z, h3, Nat.le_trans h2.rank h4, fun l l' hl hl' => ?_⟩
    cases y with
    | gathering l2 => rw [h5 l2 l' rfl hl', h2.same l l2 hl rfl]
    | _ => rw [hl'] at h4; simp [Closer.rank] at h4

section
variable (E : Env) (clientId maxRetries : Int) (es : List Ev) (σ : Nat → Ev)

theorem at_after (n : Nat) : ∃ es', (after E clientId maxRetries es).at E σ n = after E clientId maxRetries es' := by
  induction n with
  | zero => exact ⟨es, rfl⟩
  | succ n ih =>
    obtain ⟨es', h⟩ := ih
    exact ⟨es' ++ [σ n], by rw [after_snoc, Sys.at, h]⟩

variable {E clientId maxRetries es σ}

local notation "S" => Sys.at E (after E clientId maxRetries es) σ

theorem at_ok (n : Nat) : SysOk E False (S n) := by
  obtain ⟨es', h⟩ := at_after E clientId maxRetries es σ n
  rw [h]
  exact (SysOk.init E False clientId maxRetries).run _ (fun u => u.elim)

theorem at_begun (n : Nat) : Begun (S n).g := by
  obtain ⟨es', h⟩ := at_after E clientId maxRetries es σ n
  rw [h]; exact reach_begun E clientId maxRetries es'

theorem at_conn {n c : Nat} {x : Conn} (h : (S n).g.conns[c]? = some x) : ∃ es, x.w = World.init.run es := (at_begun n x (List.mem_of_getElem? h)).1

theorem at_req {n c r : Nat} {x : Conn} {q : Req} (h : (S n).g.conns[c]? = some x) (hq : x.w.reqs[r]? = some q) : q.Good := by
  obtain ⟨⟨es', h1⟩, h2⟩ := at_begun n x (List.mem_of_getElem? h)
  rw [h1] at hq
  exact good_of ((worldOk es').reqs r _ hq) (h2 r q (by rw [h1]; exact hq))

/-- The worlds of a connection. -/
theorem conn_next {n c : Nat} {x : Conn} (h : (S n).g.conns[c]? = some x) : ∃ x' l, (S (n + 1)).g.conns[c]? = some x' ∧ x'.w = x.w.run l := by
  obtain ⟨x', l, h1, h2, -⟩ := (star_grows (step_micro (at_ok n) (σ n) (fun u => u.elim))).keep c x h
  exact ⟨x', l, h1, h2⟩

theorem conn_later {c : Nat} : ∀ {n m : Nat} {x : Conn}, n ≤ m → (S n).g.conns[c]? = some x → ∃ x' l, (S m).g.conns[c]? = some x' ∧ x'.w = x.w.run l := by
  intro n m x hm h
  obtain ⟨k, rfl⟩ := Nat.exists_eq_add_of_le hm
  clear hm
  induction k with
  | zero => exact ⟨x, [], h, rfl⟩
  | succ k ih =>
    obtain ⟨x', l, h1, h2⟩ := ih
    obtain ⟨x'', l', h3, h4⟩ := conn_next h1
    exact ⟨x'', l ++ l', h3, by rw [h4, h2, world_run_append]⟩

/-- An event at a connection. -/
theorem conn_at_net {n c : Nat} {x : Conn} {e : Event} (h : (S n).g.conns[c]? = some x) (he : σ n = .net c e) (hx : e.external = true) :
    ∃ x', (S (n + 1)).g.conns[c]? = some x' ∧ x'.w = x.w.step e := by
  refine ⟨{ x with w := x.w.step e }, ?_, rfl⟩
  rw [Sys.at, he]
  simp only [Sys.step, hx, if_true, Gw.net, List.getElem?_modify]
  have : ((S n).g.lostCallback c e).conns = (S n).g.conns := by
    simp only [Gw.lostCallback]
    split
    · split <;> rfl
    · rfl
  rw [this, h]
  simp

theorem req_later {n m c r : Nat} {x : Conn} {q : Req} (hm : n ≤ m) (h : (S n).g.conns[c]? = some x) (hq : x.w.reqs[r]? = some q) :
    ∃ x' q', (S m).g.conns[c]? = some x' ∧ x'.w.reqs[r]? = some q' ∧ q.Next q' ∧ Later x.w.p x'.w.p := by
  obtain ⟨x', l, h1, h2⟩ := conn_later hm h
  obtain ⟨es', h3⟩ := at_conn h
  obtain ⟨q', h4, h5⟩ := run_next l es' (h3 ▸ hq) (at_req h hq).begun
  exact ⟨x', q', h1, by rw [h2, h3]; exact h4, h5, by rw [h2]; exact run_later _ _⟩

/-- A request call ends. -/
theorem req_ends (hf : Fair E (after E clientId maxRetries es) σ) {c r : Nat} : ∀ (k n : Nat) {x : Conn} {q : Req}, 4 * q.maxRetries.toNat + 4 - q.rank ≤ k →
    (S n).g.conns[c]? = some x → x.w.reqs[r]? = some q →
    ∃ m x' q', n ≤ m ∧ (S m).g.conns[c]? = some x' ∧ x'.w.reqs[r]? = some q' ∧ q.Next q' ∧ q'.ended := by
  intro k
  induction k with
  | zero =>
    intro n x q hk h hq
    have hg := at_req h hq
    have := hg.le
    exact ⟨n, x, q, Nat.le_refl _, h, hq, .refl hg.begun, hg.ended (by omega)⟩
  | succ k ih =>
    intro n x q hk h hq
    have hg := at_req h hq
    -- it is enough to get further
    have further : ∀ {m : Nat} {x' : Conn} {q' : Req}, n ≤ m → (S m).g.conns[c]? = some x' → x'.w.reqs[r]? = some q' → q.Next q' → q.rank < q'.rank →
        ∃ m x' q', n ≤ m ∧ (S m).g.conns[c]? = some x' ∧ x'.w.reqs[r]? = some q' ∧ q.Next q' ∧ q'.ended := by
      intro m x' q' hm h' hq' hn hr
      have hle := (at_req h' hq').le
      have hmax := hn.max
      obtain ⟨m2, x2, q2, h1, h2, h3, h4, h5⟩ := ih m (x := x') (q := q') (by rw [hmax] at hle ⊢; omega) h' hq'
      exact ⟨m2, x2, q2, Nat.le_trans hm h1, h2, h3, hn.trans h4, h5⟩
    -- by an event that gets it further whenever it is where it is now
    have by_event : ∀ e : Event, e.external = true → Recurs σ (.net c e) →
        (∀ (w : World) (q' : Req), (∃ es, w = World.init.run es) → w.reqs[r]? = some q' → q'.Good → q'.rank = q.rank →
          ∀ q'', (w.step e).reqs[r]? = some q'' → q'.Next q'' → q'.rank < q''.rank) →
        ∃ m x' q', n ≤ m ∧ (S m).g.conns[c]? = some x' ∧ x'.w.reqs[r]? = some q' ∧ q.Next q' ∧ q'.ended := by
      intro e hext hrec hstep
      obtain ⟨m, hm, he⟩ := hrec n
      obtain ⟨x', q', h1, h2, h3, -⟩ := req_later hm h hq
      have hr := h3.rank
      by_cases hlt : q.rank < q'.rank
      · exact further hm h1 h2 h3 hlt
      · obtain ⟨x'', h4, h5⟩ := conn_at_net h1 he hext
        obtain ⟨q'', h6, h7, -⟩ := step_next h2 (at_req h1 h2) e
        have := hstep x'.w q' (at_conn h1) h2 (at_req h1 h2) (by omega) q'' h6 h7
        exact further (Nat.le_succ_of_le hm) h4 (by rw [h5]; exact h6) (h3.trans h7) (by omega)
    cases hp : q.phase with
    | start => exact absurd hp hg.begun
    | done o => exact ⟨n, x, q, Nat.le_refl _, h, hq, .refl hg.begun, o, hp⟩
    | sleeping =>
      refine by_event (.wake r) rfl (hf.pauses c r) (fun w q' hw hq' hg' hr q'' hq'' hn => ?_)
      obtain ⟨q3, h1, -, -, -, h2⟩ := step_next hq' hg' (.wake r)
      rw [hq''] at h1; cases h1
      refine h2 rfl ?_
      have hg1 := hg'.le
      simp only [Req.rank, hp] at hr
      revert hr
      cases hp' : q'.phase with
      | start => exact absurd hp' hg'.begun
      | sleeping => exact fun _ => rfl
      | done o => simp only; intro hr; omega
      | waiting f ex cr => cases ex <;> (simp only; intro hr; omega)
    | waiting f ex cr =>
      cases ex with
      | false =>
        refine by_event (.timeout r) rfl (hf.timeouts c r) (fun w q' hw hq' hg' hr q'' hq'' hn => ?_)
        obtain ⟨q3, h1, -, h2, -, -⟩ := step_next hq' hg' (.timeout r)
        rw [hq''] at h1; cases h1
        simp only [Req.rank, hp] at hr
        revert hr
        cases hp' : q'.phase with
        | start => exact absurd hp' hg'.begun
        | sleeping => simp only; intro hr; omega
        | done o => simp only; intro hr; omega
        | waiting f' ex' cr' =>
          cases ex' with
          | false => exact fun _ => h2 rfl f' cr' hp'
          | true => simp only; intro hr; omega
      | true =>
        refine by_event (.resume r) rfl (hf.replies c r) (fun w q' hw hq' hg' hr q'' hq'' hn => ?_)
        obtain ⟨q3, h1, -, -, h2, -⟩ := step_next hq' hg' (.resume r)
        rw [hq''] at h1; cases h1
        simp only [Req.rank, hp] at hr
        revert hr
        cases hp' : q'.phase with
        | start => exact absurd hp' hg'.begun
        | sleeping => simp only; intro hr; omega
        | done o => simp only; intro hr; omega
        | waiting f' ex' cr' =>
          cases ex' with
          | false => simp only; intro hr; omega
          | true =>
            refine fun _ => h2 rfl f' cr' hp' ?_
            obtain ⟨es', rfl⟩ := hw
            obtain ⟨_, _, _, _, _, _, h3, _⟩ := ((worldOk es').reqs r _ hq').waiting f' true cr' hp'
            rcases (h3 rfl).2 with h4 | ⟨m, h4⟩ <;> rw [h4] <;> simp

/-- What task `t` waits for: a request call that exists. -/
theorem at_waits {n t c r : Nat} {k : Except PyErr (Option Bytes) → Co Res} (h : (S n).tasks[t]? = some (.request c r k)) :
    ∃ x q, (S n).g.conns[c]? = some x ∧ x.w.reqs[r]? = some q := by
  obtain ⟨es', he⟩ := at_after E clientId maxRetries es σ n
  rw [he] at h ⊢
  obtain ⟨_, _, _, x, q, _, h1, h2, _⟩ := reach_waiting E clientId maxRetries es' t c r ⟨k, h⟩
  exact ⟨x, q, h1, h2⟩

theorem at_closing {n t c i : Nat} {k : Except PyErr Unit → Co Res} (h : (S n).tasks[t]? = some (.closing c i k)) :
    ∃ x y, (S n).g.conns[c]? = some x ∧ x.w.closers[i]? = some y := by
  obtain ⟨es', he⟩ := at_after E clientId maxRetries es σ n
  rw [he] at h ⊢
  exact reach_closings E clientId maxRetries es' t c i k h

/-- An outstanding message of an encodable request is answered, times out or is cancelled. -/
theorem fut_over (hf : Fair E (after E clientId maxRetries es) σ) (henc : ∀ n, (S n).g.Encodable) {c f n : Nat} {x : Conn} (hx : (S n).g.conns[c]? = some x)
    (hl : f < x.w.p.futs.length) : ∃ m x', n ≤ m ∧ (S m).g.conns[c]? = some x' ∧ x'.w.p.futs[f]? ≠ some .pending := by
  by_cases hp : x.w.p.futs[f]? = some .pending
  · obtain ⟨es', he⟩ := at_conn hx
    have hw := worldOk es'
    rw [← he] at hw
    obtain ⟨t, r, h1, h2⟩ := hw.pending f hp
    have hfit := henc n c x t r hx h1
    have hph : r.phase = .waiting f false false := h2.resolve_right (fun h => h hfit)
    obtain ⟨init, hm, -⟩ := (hw.reqs t r h1).waiting f false false hph
    obtain ⟨m, x', q', h3, h4, h5, h6, o, h7⟩ := req_ends hf (4 * r.maxRetries.toNat + 4 - r.rank) n (Nat.le_refl _) hx h1
    refine ⟨m, x', h3, h4, fun hpend => ?_⟩
    obtain ⟨es2, he2⟩ := at_conn h4
    have hw2 := worldOk es2
    rw [← he2] at hw2
    obtain ⟨t2, r2, h8, h9⟩ := hw2.pending f hpend
    have hph2 : r2.phase = .waiting f false false := h9.resolve_right (fun h => h (henc m c x' t2 r2 h4 h8))
    obtain ⟨init2, hm2, -⟩ := (hw2.reqs t2 r2 h8).waiting f false false hph2
    have : t2 = t := hw2.disjoint t2 t r2 q' f h8 h5 (by rw [hm2]; simp) (h6.mine.subset (by rw [hm]; simp))
    subst this
    rw [h5] at h8; cases h8
    rw [h7] at hph2; cases hph2
  · exact ⟨n, x, Nat.le_refl _, hx, hp⟩

theorem over_stays {p p' : Proto} (h : Later p p') {f : Nat} (hl : f < p.futs.length) (hp : p.futs[f]? ≠ some .pending) : p'.futs[f]? ≠ some .pending := by
  have h0 := List.getElem?_eq_getElem hl
  cases hs : p.futs[f] with
  | pending => rw [hs] at h0; exact absurd h0 hp
  | result m => rw [hs] at h0; rw [h.result f m h0]; simp
  | cancelled => rw [hs] at h0; rw [h.cancelled f h0]; simp

theorem futs_over (hf : Fair E (after E clientId maxRetries es) σ) (henc : ∀ n, (S n).g.Encodable) {c : Nat} : ∀ (l : List Nat) {n : Nat} {x : Conn},
    (S n).g.conns[c]? = some x → (∀ f ∈ l, f < x.w.p.futs.length) →
    ∃ m x', n ≤ m ∧ (S m).g.conns[c]? = some x' ∧ Later x.w.p x'.w.p ∧ ∀ f ∈ l, x'.w.p.futs[f]? ≠ some .pending
  | [], n, x, hx, hl => ⟨n, x, Nat.le_refl _, hx, .refl _, by simp⟩
  | f :: l, n, x, hx, hl => by
    obtain ⟨m, x', h1, h2, h3⟩ := fut_over hf henc hx (hl f (by simp))
    obtain ⟨x1, es', h4, h5⟩ := conn_later h1 hx
    rw [h2] at h4; cases h4
    have hlat : Later x.w.p x'.w.p := by rw [h5]; exact run_later _ _
    obtain ⟨m2, x2, k1, k2, k3, k4⟩ := futs_over hf henc l h2 (fun g hg => Nat.lt_of_lt_of_le (hl g (by simp [hg])) hlat.futsLen)
    refine ⟨m2, x2, Nat.le_trans h1 k1, k2, hlat.trans k3, fun g hg => ?_⟩
    rcases List.mem_cons.1 hg with rfl | hg
    · exact over_stays k3 (Nat.lt_of_lt_of_le (hl g (by simp)) hlat.futsLen) h3
    · exact k4 g hg

theorem closer_later {n m c i : Nat} {x : Conn} {y : Closer} (hm : n ≤ m) (h : (S n).g.conns[c]? = some x) (hy : x.w.closers[i]? = some y) :
    ∃ x' y', (S m).g.conns[c]? = some x' ∧ x'.w.closers[i]? = some y' ∧ y.rank ≤ y'.rank ∧ (∀ l l', y = .gathering l → y' = .gathering l' → l' = l) ∧
      Later x.w.p x'.w.p := by
  obtain ⟨x', l, h1, h2⟩ := conn_later hm h
  obtain ⟨y', h3, h4, h5⟩ := run_gathering (es := l) hy
  exact ⟨x', y', h1, by rw [h2]; exact h3, h4, h5, by rw [h2]; exact run_later _ _⟩

/-- A closing that waits for requests which are over goes on. -/
theorem close_cleared (hf : Fair E (after E clientId maxRetries es) σ) {c i n n1 : Nat} {x x1 : Conn} {l : List Nat}
    (hx : (S n).g.conns[c]? = some x) (hy : x.w.closers[i]? = some (.gathering l)) (h1 : n ≤ n1) (h2 : (S n1).g.conns[c]? = some x1)
    (h4 : ∀ f ∈ l, x1.w.p.futs[f]? ≠ some .pending) :
    ∃ m x' y', n ≤ m ∧ (S m).g.conns[c]? = some x' ∧ x'.w.closers[i]? = some y' ∧ 0 < y'.rank := by
  obtain ⟨es', he⟩ := at_conn hx
  have hl := (closeOk_run es').gathering i l (by rw [← he]; exact hy)
  rw [← he] at hl
  obtain ⟨m2, h5, h6⟩ := hf.gathers c i n1
  obtain ⟨x2, y2, k1, k2, k3, k4, k5⟩ := closer_later (Nat.le_trans h1 h5) hx hy
  by_cases hr : 0 < y2.rank
  · exact ⟨m2, x2, y2, Nat.le_trans h1 h5, k1, k2, hr⟩
  · cases y2 with
    | gathering l2 =>
      obtain rfl := k4 l l2 rfl rfl
      obtain ⟨x3, j1, j2⟩ := conn_at_net k1 h6 rfl
      obtain ⟨y3, j3, j4⟩ := step_closes k2 (.closeResume i)
      refine ⟨m2 + 1, x3, y3, Nat.le_succ_of_le (Nat.le_trans h1 h5), j1, by rw [j2]; exact j3, j4.gather l2 rfl rfl ?_⟩
      obtain ⟨x4, l4, j5, j6⟩ := conn_later h5 h2
      rw [k1] at j5; cases j5
      have hlat : Later x1.w.p x2.w.p := by rw [j6]; exact run_later _ _
      obtain ⟨x5, l5, j7, j8⟩ := conn_later h1 hx
      rw [h2] at j7; cases j7
      have hlat' : Later x.w.p x1.w.p := by rw [j8]; exact run_later _ _
      simp only [gatherDone, Bool.or_eq_true, List.all_eq_true, bne_iff_ne]
      exact .inl (fun f hfm => over_stays hlat (Nat.lt_of_lt_of_le (hl f hfm) hlat'.futsLen) (h4 f hfm))
    | _ => simp [Closer.rank] at hr

/-- A closing ends: first it gets past the outstanding requests. -/
theorem close_gathers (hf : Fair E (after E clientId maxRetries es) σ) (henc : ∀ n, (S n).g.Encodable) {c i n : Nat} {x : Conn} {y : Closer}
    (hx : (S n).g.conns[c]? = some x) (hy : x.w.closers[i]? = some y) :
    ∃ m x' y', n ≤ m ∧ (S m).g.conns[c]? = some x' ∧ x'.w.closers[i]? = some y' ∧ 0 < y'.rank := by
  by_cases h0 : 0 < y.rank
  · exact ⟨n, x, y, Nat.le_refl _, hx, hy, h0⟩
  · cases y with
    | gathering l =>
      obtain ⟨es', he⟩ := at_conn hx
      have hl := (closeOk_run es').gathering i l (by rw [← he]; exact hy)
      rw [← he] at hl
      obtain ⟨m, x1, h1, h2, h3, h4⟩ := futs_over hf henc l hx hl
      exact close_cleared hf hx hy h1 h2 h4
    | _ => simp [Closer.rank] at h0

/-- Then the connection goes down. -/
theorem close_finishes (hf : Fair E (after E clientId maxRetries es) σ) {c i n : Nat}
    (hg : ∃ m x' y', n ≤ m ∧ (S m).g.conns[c]? = some x' ∧ x'.w.closers[i]? = some y' ∧ 0 < y'.rank) :
    ∃ m x' y', n ≤ m ∧ (S m).g.conns[c]? = some x' ∧ x'.w.closers[i]? = some y' ∧ 1 < y'.rank := by
  obtain ⟨m, x1, y1, h1, h2, h3, h4⟩ := hg
  by_cases hr : 1 < y1.rank
  · exact ⟨m, x1, y1, h1, h2, h3, hr⟩
  · cases y1 with
    | awaitClosed =>
      obtain ⟨es', he⟩ := at_conn h2
      have ht := (closeOk_run es').waiting i (by rw [← he]; exact h3)
      rw [← he] at ht
      obtain ⟨m2, h5, h6⟩ := hf.losses m c x1 h2 ht
      obtain ⟨x2, l2, k1, k2⟩ := conn_later h5 h2
      obtain ⟨x3, j1, j2⟩ := conn_at_net k1 h6 rfl
      have hdown : x3.w.p.closed = true := by
        obtain ⟨es3, he3⟩ := at_conn j1
        have hok := worldOk es3
        rw [← he3] at hok
        refine (hok.closed ?_).2
        rw [j2]
        simp only [World.step]
        split
        · simp only [Proto.connectionLost]; rw [stopKeepalive_eq]
        · rename_i hc; simpa using hc
      obtain ⟨m4, h7, h8⟩ := hf.closes c i (m2 + 1)
      have hle : m ≤ m4 := Nat.le_trans h5 (Nat.le_trans (Nat.le_succ _) h7)
      obtain ⟨x4, y4, i1, i2, i3, -, -⟩ := closer_later hle h2 h3
      by_cases hr4 : 1 < y4.rank
      · exact ⟨m4, x4, y4, Nat.le_trans h1 hle, i1, i2, hr4⟩
      · cases y4 with
        | awaitClosed =>
          obtain ⟨x5, l5, i4, i5⟩ := conn_later h7 j1
          rw [i1] at i4; cases i4
          obtain ⟨x6, g1, g2⟩ := conn_at_net i1 h8 rfl
          obtain ⟨y6, g3, g4⟩ := step_closes i2 (.closeFinish i)
          exact ⟨m4 + 1, x6, y6, Nat.le_succ_of_le (Nat.le_trans h1 hle), g1, by rw [g2]; exact g3,
            g4.finish rfl rfl (.inr (by rw [i5]; exact (run_later _ _).closed hdown))⟩
        | gathering l => simp [Closer.rank] at i3
        | _ => simp [Closer.rank] at hr4
    | gathering l => simp [Closer.rank] at h4
    | _ => simp [Closer.rank] at hr

/-- A closing ends. -/
theorem close_ends (hf : Fair E (after E clientId maxRetries es) σ) (henc : ∀ n, (S n).g.Encodable) {c i n : Nat} {x : Conn} {y : Closer}
    (hx : (S n).g.conns[c]? = some x) (hy : x.w.closers[i]? = some y) :
    ∃ m x' y', n ≤ m ∧ (S m).g.conns[c]? = some x' ∧ x'.w.closers[i]? = some y' ∧ 1 < y'.rank :=
  close_finishes hf (close_gathers hf henc hx hy)

end

end SL
