import Verif.Lemmas.Leads
/-!
# Tasks end in a fair history, unless they wait for the lock for ever
-/
set_option linter.unusedVariables false

namespace SL

/-- How a suspended task can go on, other than over a new TCP connection. -/
def Task.Goes (x : Task) (co : Co Res) : Prop :=
  match x with
  | .request _ _ k => ∃ o, co = k o
  | .opening _ k => ∃ e, co = k (.error e)
  | .sleeping k => ∃ o, co = k o
  | .closing _ _ k => ∃ o, co = k o
  | .locked k => ∃ o, co = k o
  | .done _ => False

/-- Task `t`, in state `x`, goes on at the event `ev`. -/
def Sys.Fires (E : Env) (s : Sys) (t : Nat) (x : Task) (ev : Ev) : Prop := ∃ co g0, x.Goes co ∧ s.step E ev = s.put t (settle t co g0)

section
variable {E : Env} {clientId maxRetries : Int} {es : List Ev} {σ : Nat → Ev}

local notation "S" => Sys.at E (after E clientId maxRetries es) σ

theorem task_next (s : Sys) {t : Nat} {x : Task} (hx : s.tasks[t]? = some x) (ev : Ev) (ho : ev = .opened t true → ¬ s.opening t) :
    s.Fires E t x ev ∨ (s.step E ev).tasks[t]? = some x := by
  have same : s.step E ev = s → s.Fires E t x ev ∨ (s.step E ev).tasks[t]? = some x := fun e => .inr (by rw [e]; exact hx)
  have ht := lt_of_getElem? hx
  cases hown : ev.own t with
  | false => exact .inr ((step_other_task E s ev ht hown).1.trans hx)
  | true =>
    have ev_eq : (∃ ok, ev = .opened t ok) ∨ ev = .resume t ∨ ev = .cancel t := by
      cases ev <;> simp_all [Ev.own]
    cases x with
    | done r => exact same (by rcases ev_eq with ⟨ok, rfl⟩ | rfl | rfl <;> simp only [Sys.step, hx])
    | request c i k =>
      rcases ev_eq with ⟨ok, rfl⟩ | rfl | rfl
      · exact same (by simp only [Sys.step, hx])
      · cases h : s.g.outcome c i with
        | none => exact same (by simp only [Sys.step, hx, h])
        | some o => exact .inl ⟨k o, s.g.note t (.got o), ⟨o, rfl⟩, by simp only [Sys.step, hx, h]⟩
      · exact same (by simp only [Sys.step, hx])
    | opening r k =>
      rcases ev_eq with ⟨ok, rfl⟩ | rfl | rfl
      · cases ok with
        | false => exact .inl ⟨k (.error .slConnection), s.g, ⟨_, rfl⟩, by simp only [Sys.step, hx, Bool.false_eq_true, if_false]⟩
        | true => exact absurd ⟨r, k, hx⟩ (ho rfl)
      · exact same (by simp only [Sys.step, hx])
      · exact .inl ⟨k (.error .cancelled), s.g, ⟨_, rfl⟩, by simp only [Sys.step, hx]⟩
    | sleeping k =>
      rcases ev_eq with ⟨ok, rfl⟩ | rfl | rfl
      · exact same (by simp only [Sys.step, hx])
      · exact .inl ⟨k (.ok ()), s.g, ⟨_, rfl⟩, by simp only [Sys.step, hx]⟩
      · exact .inl ⟨k (.error .cancelled), s.g, ⟨_, rfl⟩, by simp only [Sys.step, hx]⟩
    | closing c i k =>
      rcases ev_eq with ⟨ok, rfl⟩ | rfl | rfl
      · exact same (by simp only [Sys.step, hx])
      · by_cases h : s.g.closeEnded c i = true
        · exact .inl ⟨k (s.g.closeResult c i), s.g, ⟨_, rfl⟩, by simp only [Sys.step, hx, h, if_true]⟩
        · exact same (by simp only [Sys.step, hx, h]; rfl)
      · exact same (by simp only [Sys.step, hx])
    | locked k =>
      rcases ev_eq with ⟨ok, rfl⟩ | rfl | rfl
      · exact same (by simp only [Sys.step, hx])
      · by_cases h : s.g.lock = none ∧ s.g.waiters.head? = some t
        · exact .inl ⟨k (.ok ()), (s.g.setWaiters s.g.waiters.tail).take t, ⟨_, rfl⟩, by simp only [Sys.step, hx]; rw [if_pos h]⟩
        · exact same (by simp only [Sys.step, hx]; rw [if_neg h])
      · exact .inl ⟨k (.error .cancelled), s.g.setWaiters (s.g.waiters.filter (· ≠ t)), ⟨_, rfl⟩, by simp only [Sys.step, hx]⟩

/-- The call made as task `t` ends, or waits for the lock for ever. -/
def EndsOrStuck (E : Env) (s : Sys) (σ : Nat → Ev) (t : Nat) : Prop :=
  (∃ m, (s.at E σ m).ended t) ∨
  ∃ n k, ∀ m, n ≤ m → (s.at E σ m).tasks[t]? = some (.locked k) ∧ ¬ (s.at E σ m).Fires E t (.locked k) (σ m)

/-- What the task closes gets closed. -/
def Closable (E : Env) (s : Sys) (σ : Nat → Ev) (t : Nat) : Prop :=
  ∀ n c i k, (s.at E σ n).tasks[t]? = some (.closing c i k) → ∃ m x y, n ≤ m ∧ (s.at E σ m).g.conns[c]? = some x ∧ x.w.closers[i]? = some y ∧ 1 < y.rank

theorem closable_of (hf : Fair E (after E clientId maxRetries es) σ) (henc : ∀ n, (S n).g.Encodable) (t : Nat) :
    Closable E (after E clientId maxRetries es) σ t := by
  intro n c i k hx
  obtain ⟨y, z, h1, h2⟩ := at_closing hx
  exact close_ends hf henc h1 h2

/-- A task goes on some time, unless it waits for the lock for ever or has ended. -/
theorem goes_on (hf : Fair E (after E clientId maxRetries es) σ) {t N : Nat} (hcl : Closable E (after E clientId maxRetries es) σ t) (hN : ∀ n, N ≤ n → σ n = .opened t true → ¬ (S n).opening t)
    {x : Task} (hrec : ∀ co, x.Goes co → ∀ g n, N ≤ n → (S n).tasks[t]? = some (settle t co g).1 → EndsOrStuck E (after E clientId maxRetries es) σ t)
    {n : Nat} (hn : N ≤ n) (hx : (S n).tasks[t]? = some x) : EndsOrStuck E (after E clientId maxRetries es) σ t := by
  by_cases hfire : ∃ m, n ≤ m ∧ (S m).tasks[t]? = some x ∧ (S m).Fires E t x (σ m)
  · obtain ⟨m, hm, hxm, co, g0, h1, h2⟩ := hfire
    refine hrec co h1 g0 (m + 1) (by omega) ?_
    rw [Sys.at, h2]
    exact put_task hxm _
  · have stays : ∀ m, n ≤ m → (S m).tasks[t]? = some x := by
      intro m hm
      obtain ⟨k, rfl⟩ := Nat.exists_eq_add_of_le hm
      clear hm
      induction k with
      | zero => exact hx
      | succ k ih =>
        rcases task_next (E := E) (S (n + k)) ih (σ (n + k)) (hN _ (by omega)) with h | h
        · exact absurd ⟨n + k, by omega, ih, h⟩ hfire
        · exact h
    have never : ∀ m, n ≤ m → ¬ (S m).Fires E t x (σ m) := fun m hm h => hfire ⟨m, hm, stays m hm, h⟩
    cases x with
    | done r => exact .inl ⟨n, by rw [Sys.ended, result_eq hx]; simp [Task.result?]⟩
    | locked k => exact .inr ⟨n, k, fun m hm => ⟨stays m hm, never m hm⟩⟩
    | sleeping k =>
      obtain ⟨m, hm, he⟩ := hf.tasks t n
      refine absurd ?_ (never m hm)
      rw [he]
      exact ⟨k (.ok ()), (S m).g, ⟨_, rfl⟩, by simp only [Sys.step, stays m hm]⟩
    | opening q k =>
      obtain ⟨m, hm, ok, he⟩ := hf.opening t n
      refine absurd ?_ (never m hm)
      cases ok with
      | true => exact absurd ⟨q, k, stays m hm⟩ (hN m (by omega) he)
      | false =>
        rw [he]
        exact ⟨k (.error .slConnection), (S m).g, ⟨_, rfl⟩, by simp only [Sys.step, stays m hm, Bool.false_eq_true, if_false]⟩
    | request c r k =>
      obtain ⟨y, q, h1, h2⟩ := at_waits hx
      obtain ⟨m, y', q', hm, h3, h4, -, h5⟩ := req_ends hf (4 * q.maxRetries.toNat + 4 - q.rank) n (Nat.le_refl _) h1 h2
      obtain ⟨m2, hm2, he⟩ := hf.tasks t m
      obtain ⟨y2, q2, h6, h7, h8, -⟩ := req_later hm2 h3 h4
      have hend : q2.ended := by
        refine (at_req h6 h7).ended ?_
        have h9 := h8.rank
        have := (at_req h6 h7).le
        rw [rank_ended h5, ← h8.max] at h9
        omega
      refine absurd ?_ (never m2 (by omega))
      rw [he]
      obtain ⟨o, ho⟩ := hend
      have hout : ∃ v, (S m2).g.outcome c r = some v := by
        rw [Gw.outcome, h6]
        simp only [Option.bind_some, World.outcome, h7, ho]
        cases o <;> exact ⟨_, rfl⟩
      obtain ⟨v, hv⟩ := hout
      exact ⟨k v, (S m2).g.note t (.got v), ⟨_, rfl⟩, by simp only [Sys.step, stays m2 (by omega), hv]⟩
    | closing c i k =>
      obtain ⟨m, y', z', hm, h3, h4, h5⟩ := hcl n c i k hx
      obtain ⟨m2, hm2, he⟩ := hf.tasks t m
      obtain ⟨y2, z2, h6, h7, h8, -⟩ := closer_later hm2 h3 h4
      refine absurd ?_ (never m2 (by omega))
      rw [he]
      have hout : (S m2).g.closeEnded c i = true := by
        rw [Gw.closeEnded, h6]
        simp only [h7]
        have h9 : 1 < z2.rank := by omega
        cases z2 with
        | done => rfl
        | cancelled => rfl
        | _ => simp [Closer.rank] at h9
      exact ⟨k ((S m2).g.closeResult c i), (S m2).g, ⟨_, rfl⟩, by simp only [Sys.step, stays m2 (by omega), hout, if_true]⟩

/-- From any coroutine on. -/
theorem settle_ends (hf : Fair E (after E clientId maxRetries es) σ) {t N : Nat} (hcl : Closable E (after E clientId maxRetries es) σ t) (hN : ∀ n, N ≤ n → σ n = .opened t true → ¬ (S n).opening t) :
    ∀ (co : Co Res) (g : Gw) (n : Nat), N ≤ n → (S n).tasks[t]? = some (settle t co g).1 → EndsOrStuck E (after E clientId maxRetries es) σ t
  | .ret a, g, n, hn, h => goes_on hf hcl hN (x := .done (.ok a)) (fun _ h => False.elim h) hn h
  | .throw e, g, n, hn, h => goes_on hf hcl hN (x := .done (.error e)) (fun _ h => False.elim h) hn h
  | .get k, g, n, hn, h => settle_ends hf hcl hN (k g) g n hn h
  | .upd f k, g, n, hn, h => settle_ends hf hcl hN k (g.apply f) n hn h
  | .request c code data r k, g, n, hn, h => by
    simp only [settle] at h
    split at h
    · exact settle_ends hf hcl hN _ _ n hn h
    · exact goes_on hf hcl hN (x := .request c _ k) (fun co (hg : ∃ o, co = k o) => by obtain ⟨o, rfl⟩ := hg; exact settle_ends hf hcl hN (k o)) hn h
  | .openConn r k, g, n, hn, h => goes_on hf hcl hN (x := .opening r k) (fun co (hg : ∃ e, co = k (.error e)) => by obtain ⟨e, rfl⟩ := hg; exact settle_ends hf hcl hN (k (.error e))) hn h
  | .sleep k, g, n, hn, h => goes_on hf hcl hN (x := .sleeping k) (fun co (hg : ∃ o, co = k o) => by obtain ⟨o, rfl⟩ := hg; exact settle_ends hf hcl hN (k o)) hn h
  | .close c force k, g, n, hn, h => by
    simp only [settle] at h
    split at h
    · exact settle_ends hf hcl hN _ _ n hn h
    · exact goes_on hf hcl hN (x := .closing c _ k) (fun co (hg : ∃ o, co = k o) => by obtain ⟨o, rfl⟩ := hg; exact settle_ends hf hcl hN (k o)) hn h
  | .acquire k, g, n, hn, h => by
    simp only [settle] at h
    split at h
    · exact settle_ends hf hcl hN _ _ n hn h
    · exact goes_on hf hcl hN (x := .locked k) (fun co (hg : ∃ o, co = k o) => by obtain ⟨o, rfl⟩ := hg; exact settle_ends hf hcl hN (k o)) hn h

theorem at_task {t n m : Nat} (hm : n ≤ m) (h : t < (S n).tasks.length) : t < (S m).tasks.length := by
  obtain ⟨k, rfl⟩ := Nat.exists_eq_add_of_le hm
  clear hm
  induction k with
  | zero => exact h
  | succ k ih =>
    have := step_length E (S (n + k)) (σ (n + k))
    exact Nat.lt_of_lt_of_le ih this

/-- From any state of a task on. -/
theorem task_ends (hf : Fair E (after E clientId maxRetries es) σ) {t N : Nat} (hcl : Closable E (after E clientId maxRetries es) σ t) (hN : ∀ n, N ≤ n → σ n = .opened t true → ¬ (S n).opening t)
    {n : Nat} (ht : t < (S n).tasks.length) : EndsOrStuck E (after E clientId maxRetries es) σ t := by
  have h := at_task (Nat.le_max_left n N) ht
  exact goes_on hf hcl hN (fun co hg g m hm h => settle_ends hf hcl hN co g m hm h) (Nat.le_max_right n N) (List.getElem?_eq_getElem h)

end

end SL
