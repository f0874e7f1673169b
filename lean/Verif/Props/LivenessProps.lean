import Verif.Lemmas.Queue
import Verif.Props.LockProps
import Verif.Props.VocabProps
import Verif.Spec.Liveness
import Mathlib.Data.Nat.Pairing
/-!
# C101: every call ends
-/
set_option linter.unusedVariables false

namespace SL

section
variable {E : Env} {clientId maxRetries : Int} {es : List Ev} {σ : Nat → Ev}

local notation "S" => Sys.at E (after E clientId maxRetries es) σ

theorem at_hold (n : Nat) : (S n).Hold (fun _ => True) := by
  have key : ∀ es, (after E clientId maxRetries es).Hold (fun _ => True) := by
    intro es
    induction es using snoc_ind with
    | h0 => exact hold_init clientId maxRetries _
    | hs es ev ih =>
      rw [after_snoc]
      exact step_hold ((SysOk.init E False clientId maxRetries).run _ (fun u => u.elim)) ih ev (fun _ _ => trivial) (fun _ _ _ => trivial)
  obtain ⟨es', h⟩ := at_after E clientId maxRetries es σ n
  rw [h]
  exact key es'

theorem done_stays {s : Sys} {t : Nat} {r : Except PyErr Res} (h : s.tasks[t]? = some (.done r)) (ev : Ev) : (s.step E ev).tasks[t]? = some (.done r) := by
  cases hown : ev.own t with
  | false => exact (step_other_task E s ev (lt_of_getElem? h) hown).1.trans h
  | true =>
    have ev_eq : (∃ ok, ev = .opened t ok) ∨ ev = .resume t ∨ ev = .cancel t := by
      cases ev <;> simp_all [Ev.own]
    have : s.step E ev = s := by
      rcases ev_eq with ⟨ok, rfl⟩ | rfl | rfl <;> simp only [Sys.step, h]
    rw [this]; exact h

theorem ended_done {s : Sys} {t : Nat} (h : s.ended t) : ∃ r, s.tasks[t]? = some (.done r) := by
  unfold Sys.ended Sys.result at h
  cases hx : s.tasks[t]? with
  | none => rw [hx] at h; exact absurd rfl h
  | some x =>
    rw [hx] at h
    cases x with
    | done r => exact ⟨r, rfl⟩
    | _ => exact absurd rfl h

theorem done_ended {s : Sys} {t : Nat} {r : Except PyErr Res} (h : s.tasks[t]? = some (.done r)) : s.ended t := by
  rw [Sys.ended, result_eq h]
  simp [Task.result?]

theorem ended_later {t n m : Nat} (hm : n ≤ m) (h : (S n).ended t) : (S m).ended t := by
  obtain ⟨k, rfl⟩ := Nat.exists_eq_add_of_le hm
  clear hm
  induction k with
  | zero => exact h
  | succ k ih =>
    obtain ⟨r, hr⟩ := ended_done ih
    exact done_ended (done_stays hr (σ (n + k)))

theorem queue_ends (hf : Fair E (after E clientId maxRetries es) σ) (henc : ∀ n, (S n).g.Encodable) (hU : Unreachable E (after E clientId maxRetries es) σ) :
    ∀ (L n t : Nat) (k : Except PyErr Unit → Co Res), (∀ m, n ≤ m → (S m).tasks[t]? = some (.locked k) ∧ ¬ (S m).Fires E t (.locked k) (σ m)) →
      (ahead t (S n).g.waiters).length ≤ L → ∃ u n, ∀ m, n ≤ m → (S m).holding u ∧ (S m).waiting u := by
  intro L
  induction L using Nat.strongRecOn with
  | _ L ih =>
  intro n t k h hL
  by_cases hsh : ∃ m, n ≤ m ∧ (ahead t (S m).g.waiters).length < (ahead t (S n).g.waiters).length
  · obtain ⟨m, hm, hlt⟩ := hsh
    exact ih (ahead t (S m).g.waiters).length (by omega) m t k (fun m' hm' => h m' (by omega)) (Nat.le_refl _)
  · have next : ∀ m, n ≤ m → ahead t (S m).g.waiters = ahead t (S n).g.waiters →
        ahead t (S (m + 1)).g.waiters = ahead t (S n).g.waiters ∧ ((S (m + 1)).g.lock = (S m).g.lock ∨ (S (m + 1)).g.lock = none) := by
      intro m hm he
      rcases step_ahead (at_ok m) (at_hold m) (σ m) (fun _ x => x) (fun _ _ _ => trivial) (h m hm).1 (h m hm).2 with ⟨h1, h2⟩ | h1
      · exact ⟨h1.trans he, h2⟩
      · exact absurd ⟨m + 1, by omega, by rw [he] at h1; exact h1⟩ hsh
    have same : ∀ d, ahead t (S (n + d)).g.waiters = ahead t (S n).g.waiters := by
      intro d
      induction d with
      | zero => rfl
      | succ d ihd => exact (next (n + d) (by omega) ihd).1
    have same : ∀ m, n ≤ m → ahead t (S m).g.waiters = ahead t (S n).g.waiters := by
      intro m hm
      obtain ⟨d, rfl⟩ := Nat.exists_eq_add_of_le hm
      exact same d
    have lock : ∀ m, n ≤ m → (S (m + 1)).g.lock = (S m).g.lock ∨ (S (m + 1)).g.lock = none := fun m hm => (next m hm (same m hm)).2
    by_cases hnone : ∃ m, n ≤ m ∧ (S m).g.lock = none
    · exfalso
      obtain ⟨m0, hm0, hl0⟩ := hnone
      have free : ∀ m, m0 ≤ m → (S m).g.lock = none := by
        intro m hm
        obtain ⟨d, rfl⟩ := Nat.exists_eq_add_of_le hm
        clear hm
        induction d with
        | zero => exact hl0
        | succ d ihd =>
          rcases lock (m0 + d) (by omega) with e | e
          · exact e.trans ihd
          · exact e
      have mem : ∀ m, n ≤ m → t ∈ (S m).g.waiters := fun m hm => ((at_hold m).iff t).2 ⟨k, (h m hm).1⟩
      obtain ⟨v, hv⟩ : ∃ v, (ahead t (S n).g.waiters ++ [t]).head? = some v := by
        cases ahead t (S n).g.waiters <;> exact ⟨_, rfl⟩
      have head : ∀ m, n ≤ m → (S m).g.waiters.head? = some v := fun m hm => by rw [ahead_head (mem m hm), same m hm, hv]
      obtain ⟨m, hm, he⟩ := hf.tasks v m0
      have hmn : n ≤ m := by omega
      have hhd := head m hmn
      obtain ⟨w, hw⟩ : ∃ w, (S m).g.waiters = v :: w := by
        cases hws : (S m).g.waiters with
        | nil => rw [hws] at hhd; cases hhd
        | cons a w => rw [hws] at hhd; cases hhd; exact ⟨w, rfl⟩
      obtain ⟨kv, hkv⟩ := ((at_hold m).iff v).1 (by rw [hw]; simp)
      have hstep : (S m).step E (σ m) = (S m).put v (settle v (kv (.ok ())) (((S m).g.setWaiters (S m).g.waiters.tail).take v)) := by
        rw [he]
        simp only [Sys.step, hkv]
        rw [if_pos ⟨free m hm, hhd⟩]
      by_cases hvt : v = t
      · subst hvt
        have hk := (h m hmn).1
        rw [hkv] at hk
        cases hk
        exact (h m hmn).2 ⟨_, _, ⟨_, rfl⟩, hstep⟩
      · have htask := (at_hold m).task v _ hkv
        obtain ⟨-, k2, -⟩ := settle_hold v (kv (.ok ())) True (((S m).g.setWaiters (S m).g.waiters.tail).take v) (htask.2.1 True _ id (by rw [free m hm]; simp) rfl)
        obtain ⟨l, hl⟩ := queued_append v (settle v (kv (.ok ())) (((S m).g.setWaiters (S m).g.waiters.tail).take v)).1 (((S m).g.setWaiters (S m).g.waiters.tail).take v).waiters
        rw [hl] at k2
        have hw' : (S (m + 1)).g.waiters = w ++ l := by
          show ((S m).step E (σ m)).g.waiters = w ++ l
          rw [hstep]
          refine Eq.trans (b := (S m).g.waiters.tail ++ l) k2 ?_
          rw [hw]; rfl
        have hmt : t ∈ w := by
          have := mem m hmn
          rw [hw] at this
          exact (List.mem_cons.1 this).resolve_left (Ne.symm hvt)
        have h1 := same (m + 1) (by omega)
        have h2 := same m hmn
        rw [hw', ahead_append hmt] at h1
        have h3 : ahead t (v :: w) = v :: ahead t w := by simp [ahead, hvt]
        rw [hw, h3, h1] at h2
        have := congrArg List.length h2
        simp at this
    · have keep : ∀ m, n ≤ m → (S m).g.lock = (S n).g.lock := by
        intro m hm
        obtain ⟨d, rfl⟩ := Nat.exists_eq_add_of_le hm
        clear hm
        induction d with
        | zero => rfl
        | succ d ihd =>
          rcases lock (n + d) (by omega) with e | e
          · exact e.trans ihd
          · exact absurd ⟨n + d + 1, by omega, e⟩ hnone
      cases hl : (S n).g.lock with
      | none => exact absurd ⟨n, Nat.le_refl _, hl⟩ hnone
      | some u =>
        obtain ⟨N, hN⟩ := hU
        rcases task_ends (t := u) hf (closable_of hf henc u) (fun m hm => hN m hm u) ((at_hold n).lt u hl) with ⟨m, hm⟩ | ⟨m, ku, hm⟩
        · exfalso
          have he := ended_later (Nat.le_max_left m n) hm
          have hh : (S (max m n)).holding u := (keep _ (Nat.le_max_right m n)).trans hl
          obtain ⟨es', e⟩ := at_after E clientId maxRetries es σ (max m n)
          rw [e] at he hh
          exact he (C49_holder E clientId maxRetries es' u hh).2
        · exact ⟨u, max m n, fun m' hm' => ⟨(keep m' (by omega)).trans hl, ku, (hm m' (by omega)).1⟩⟩


theorem at_prefix (n : Nat) : S n = after E clientId maxRetries (es ++ (List.range n).map σ) := by
  induction n with
  | zero => simp [Sys.at]
  | succ n ih => rw [List.range_succ, List.map_append, ← List.append_assoc, List.map_singleton, after_snoc, ← ih]; rfl

theorem words_length (l : List Nat) : (words l).length = 4 * l.length := by
  induction l with
  | nil => rfl
  | cons a l ih =>
    have : words (a :: l) = words [a] ++ words l := by simp [words]
    rw [this, List.length_append, ih]
    simp [words]
    omega

theorem Says.fits {id : Int} {es : List Ev} {code : Int} {data : Bytes} (h : Says id es code data)
    (hs : ∀ code data, Ev.call (.send code data) ∈ es → 0 ≤ code ∧ code ≤ 65535 ∧ data.length < 2 ^ 32) :
    0 ≤ code ∧ code ≤ 65535 ∧ data.length < 2 ^ 32 := by
  cases h with
  | byHand _ _ h0 => exact hs _ _ h0
  | login => exact ⟨by omega, by omega, by decide +kernel⟩
  | setDateTime => exact ⟨by omega, by omega, by simp [words_length, timeBlock]⟩
  | _ => exact ⟨by omega, by omega, by simp [words_length]⟩

theorem at_encodable (h : SendsFit es σ) (n : Nat) : (S n).g.Encodable := by
  intro c x r q hx hq
  rw [at_prefix] at hx
  obtain ⟨l, h1, h2⟩ := (after_says E clientId maxRetries (es ++ (List.range n).map σ)).g.conns x (List.mem_of_getElem? hx)
  rw [h1] at hq
  refine (h2 _ _ _ ((worldOk l).reqs r _ hq).called).fits (fun code data hm => h code data ?_)
  rcases List.mem_append.1 hm with hm | hm
  · exact .inl hm
  · obtain ⟨i, -, hi⟩ := List.mem_map.1 hm
    exact .inr ⟨i, hi⟩

/-- **C101** Every call (and background task) ends, if from some time on no TCP connection is made for it, unless it waits for the
subscription lock for ever. -/
theorem C101_own (hf : Fair E (after E clientId maxRetries es) σ) (hs : SendsFit es σ) {t N n0 : Nat} (hN : ∀ n, N ≤ n → σ n = .opened t true → ¬ (S n).opening t)
    (ht : t < (S n0).tasks.length) : (∃ n, (S n).ended t) ∨ ∃ n, ∀ m, n ≤ m → (S m).waiting t := by
  rcases task_ends hf (closable_of hf (at_encodable hs) t) hN ht with h | ⟨n, k, h⟩
  · exact .inl h
  · exact .inr ⟨n, fun m hm => ⟨k, (h m hm).1⟩⟩

/-- **C101** When the adapter cannot be reached any more, every call ends, unless some call waits for ever for the lock that it holds
itself. -/
theorem C101_ends (hf : Fair E (after E clientId maxRetries es) σ) (hs : SendsFit es σ) (hU : Unreachable E (after E clientId maxRetries es) σ) {t n0 : Nat} (ht : t < (S n0).tasks.length) :
    (∃ n, (S n).ended t) ∨ ∃ u n, ∀ m, n ≤ m → (S m).holding u ∧ (S m).waiting u := by
  obtain ⟨N, hN⟩ := id hU
  rcases task_ends hf (closable_of hf (at_encodable hs) t) (fun n hn => hN n hn t) ht with h | ⟨n, k, h⟩
  · exact .inl h
  · exact .inr (queue_ends hf (at_encodable hs) hU _ n t k h (Nat.le_refl _))

/-- **C101** When the adapter cannot be reached any more, every call ends, if no call ever asked for a TCP connection while it held the
subscription lock. -/
theorem C101_all (hf : Fair E (after E clientId maxRetries es) σ) (hs : SendsFit es σ) (hU : Unreachable E (after E clientId maxRetries es) σ)
    (hes : ∀ es1 es2 u, es = es1 ++ es2 → (after E clientId maxRetries es1).opening u → ¬ (after E clientId maxRetries es1).holding u)
    (hσ : ∀ n u, (S n).opening u → ¬ (S n).holding u) {t n0 : Nat} (ht : t < (S n0).tasks.length) : ∃ n, (S n).ended t := by
  rcases C101_ends hf hs hU ht with h | ⟨u, n, h⟩
  · exact h
  · exfalso
    obtain ⟨h1, h2⟩ := h n (Nat.le_refl _)
    rw [at_prefix] at h1 h2
    obtain ⟨es1, es2, e, h3, h4⟩ := C49_self_partial E clientId maxRetries _ u h2 h1
    rcases List.append_eq_append_iff.1 e with ⟨l, e1, e2⟩ | ⟨l, e1, e2⟩
    · have : l = (List.range l.length).map σ := by
        have hl : l.length ≤ n := by
          have := congrArg List.length e2
          simp at this
          omega
        have := congrArg (List.take l.length) e2
        rw [List.take_left, ← List.map_take, List.take_range, Nat.min_eq_left hl] at this
        exact this.symm
      rw [e1, this, ← at_prefix] at h3 h4
      exact hσ _ u h3 h4
    · exact hes es1 l u e1 h3 h4

/-- **C101** The exception is real: a call that waits for the lock it holds itself waits for ever, unless it is cancelled. -/
theorem C101_stuck {t : Nat} (hc : ∀ n, σ n ≠ .cancel t) (hw : (S 0).waiting t) (hh : (S 0).holding t) (n : Nat) : (S n).waiting t ∧ (S n).holding t := by
  induction n with
  | zero => exact ⟨hw, hh⟩
  | succ n ih =>
    obtain ⟨⟨k, hk⟩, hl⟩ := ih
    have hl : (S n).g.lock = some t := hl
    cases hown : (σ n).own t with
    | false =>
      refine ⟨⟨k, (step_other_task E _ (σ n) (lt_of_getElem? hk) hown).1.trans hk⟩, ?_⟩
      exact (RelyH.star (at_ok n).inv (step_but (at_ok n) (σ n) (fun u => u.elim) (lt_of_getElem? hk) hown)).mine.2 hl
    | true =>
      have ev_eq : (∃ ok, σ n = .opened t ok) ∨ σ n = .resume t := by
        have := hc n
        cases he : σ n <;> simp_all [Ev.own]
      have : S (n + 1) = S n := by
        show (S n).step E (σ n) = S n
        rcases ev_eq with ⟨ok, he⟩ | he
        · rw [he]; simp only [Sys.step, hk]
        · rw [he]; simp only [Sys.step, hk, hl]; rfl
      rw [this]
      exact ⟨⟨k, hk⟩, hl⟩

end

/-! ## A fair history -/

/-- The events of a system left to itself with the adapter gone. -/
def familyEv (k : Nat) : Ev :=
  let r := k.unpair.2
  match k.unpair.1 with
  | 0 => .resume r
  | 1 => .opened r false
  | 2 => .net r.unpair.1 (.timeout r.unpair.2)
  | 3 => .net r.unpair.1 (.resume r.unpair.2)
  | 4 => .net r.unpair.1 (.wake r.unpair.2)
  | 5 => .net r.unpair.1 (.closeResume r.unpair.2)
  | 6 => .net r.unpair.1 (.closeFinish r.unpair.2)
  | _ => .net r .lost

/-- Each of them again and again. -/
def roundRobin (n : Nat) : Ev := familyEv n.unpair.2

theorem roundRobin_recurs (k : Nat) : Recurs roundRobin (familyEv k) :=
  fun n => ⟨Nat.pair n k, Nat.left_le_pair n k, by rw [roundRobin, Nat.unpair_pair]⟩

theorem roundRobin_fair (E : Env) (s : Sys) : Fair E s roundRobin where
  tasks t := by simpa [familyEv] using roundRobin_recurs (Nat.pair 0 t)
  opening t n := by
    obtain ⟨m, h1, h2⟩ := roundRobin_recurs (Nat.pair 1 t) n
    exact ⟨m, h1, false, by simpa [familyEv] using h2⟩
  timeouts c r := by simpa [familyEv] using roundRobin_recurs (Nat.pair 2 (Nat.pair c r))
  replies c r := by simpa [familyEv] using roundRobin_recurs (Nat.pair 3 (Nat.pair c r))
  pauses c r := by simpa [familyEv] using roundRobin_recurs (Nat.pair 4 (Nat.pair c r))
  gathers c r := by simpa [familyEv] using roundRobin_recurs (Nat.pair 5 (Nat.pair c r))
  closes c r := by simpa [familyEv] using roundRobin_recurs (Nat.pair 6 (Nat.pair c r))
  losses n c x _ _ := by
    obtain ⟨m, h1, h2⟩ := roundRobin_recurs (Nat.pair 7 c) n
    exact ⟨m, h1, by simpa [familyEv] using h2⟩

theorem roundRobin_kind (n : Nat) : (∀ t, roundRobin n ≠ .opened t true) ∧ (∀ t, roundRobin n ≠ .cancel t) ∧ ∀ a, roundRobin n ≠ .call a := by
  simp only [roundRobin, familyEv]
  split <;> simp


theorem roundRobin_fit {es : List Ev} (h : ∀ code data, Ev.call (.send code data) ∉ es) : SendsFit es roundRobin := by
  rintro code data (hm | ⟨n, hn⟩)
  · exact absurd hm (h code data)
  · exact absurd hn ((roundRobin_kind n).2.2 _)

/-- No message sent by hand, as a decidable test. -/
def Ev.byHand : Ev → Bool
  | .call (.send _ _) => true
  | _ => false

theorem no_byHand {es : List Ev} (h : es.all (fun e => !e.byHand) = true) (code : Int) (data : Bytes) : Ev.call (.send code data) ∉ es := by
  intro hm
  have := List.all_eq_true.1 h _ hm
  cases this

/-- A gateway on its first connection attempt. -/
def firstEvs : List Ev := [.call (.connect { ip := some "10.0.0.9" })]

theorem net_empty {g : Gw} (h : g.conns = []) (c : Nat) (e : Event) : g.net c e = g := by
  cases g
  simp only at h
  subst h
  simp [Gw.net]

/-- The hypotheses of the C101 theorems are met: (1) a connected gateway whose update is waiting for its first answer when the adapter goes
away; (2) a gateway whose first connection attempt is refused; (3) a call that waits for the lock it holds itself. -/
theorem C101_witness :
    (Fair sampleEnv (after sampleEnv 0 5 (connectEvs ++ [.call .update])) roundRobin ∧ SendsFit (connectEvs ++ [.call .update]) roundRobin ∧
      Unreachable sampleEnv (after sampleEnv 0 5 (connectEvs ++ [.call .update])) roundRobin ∧ (after sampleEnv 0 5 (connectEvs ++ [.call .update])).running 1) ∧
    (Fair sampleEnv (after sampleEnv 0 5 firstEvs) roundRobin ∧ SendsFit firstEvs roundRobin ∧ (after sampleEnv 0 5 firstEvs).running 0 ∧
      (∀ es1 es2 u, firstEvs = es1 ++ es2 → (after sampleEnv 0 5 es1).opening u → ¬ (after sampleEnv 0 5 es1).holding u) ∧
      ∀ n u, ((after sampleEnv 0 5 firstEvs).at sampleEnv roundRobin n).opening u → ¬ ((after sampleEnv 0 5 firstEvs).at sampleEnv roundRobin n).holding u) ∧
    ((after sampleEnv 1 1 (bareConnectEvs ++ .call (.subscribe 7 12500) :: refusedClientEvs)).waiting 1 ∧
      (after sampleEnv 1 1 (bareConnectEvs ++ .call (.subscribe 7 12500) :: refusedClientEvs)).holding 1 ∧ ∀ n, roundRobin n ≠ .cancel 1) := by
  refine ⟨⟨roundRobin_fair _ _, roundRobin_fit (no_byHand (by decide +kernel)), ⟨0, fun n _ t h => absurd h ((roundRobin_kind n).1 t)⟩, ?_, ?_⟩,
    ⟨roundRobin_fair _ _, roundRobin_fit (no_byHand (by decide +kernel)), ⟨?_, ?_⟩, ?_, ?_⟩, C49_witness.2.1, C49_witness.2.2, fun n => (roundRobin_kind n).2.1 1⟩
  · decide +kernel
  · have : ((after sampleEnv 0 5 (connectEvs ++ [.call .update])).result 1).isNone = true := by decide +kernel
    exact Option.isNone_iff_eq_none.1 this
  · decide +kernel
  · have : ((after sampleEnv 0 5 firstEvs).result 0).isNone = true := by decide +kernel
    exact Option.isNone_iff_eq_none.1 this
  · intro es1 es2 u e _ h
    have : (after sampleEnv 0 5 es1).g.lock = none := by
      match es1, e with
      | [], _ => rfl
      | [a], e => cases e; decide +kernel
      | a :: b :: l, e => cases e
    rw [Sys.holding, this] at h
    cases h
  · obtain ⟨q, k, ht, hk⟩ : ∃ q k, (after sampleEnv 0 5 firstEvs).tasks = [.opening q k] ∧
        ∀ g, settle 0 (k (.error .slConnection)) g = (.done (.error .slConnection), g) := ⟨_, _, rfl, fun g => rfl⟩
    have step : ∀ (s : Sys) (n : Nat), s.g.lock = none ∧ s.g.conns = [] ∧ (s.tasks = [.opening q k] ∨ ∃ r, s.tasks = [.done r]) →
        (s.step sampleEnv (roundRobin n)).g.lock = none ∧ (s.step sampleEnv (roundRobin n)).g.conns = [] ∧
          ((s.step sampleEnv (roundRobin n)).tasks = [.opening q k] ∨ ∃ r, (s.step sampleEnv (roundRobin n)).tasks = [.done r]) := by
      intro s n h
      have net : ∀ c e, s.step sampleEnv (.net c e) = s := by
        intro c e
        have hl : s.g.lostCallback c e = s.g := by
          have hc : s.g.connected c = false := by simp [Gw.connected, h.2.1]
          cases e <;> simp [Gw.lostCallback, hc]
        simp only [Sys.step, hl, net_empty h.2.1]
        split <;> rfl
      have res : ∀ t, s.step sampleEnv (.resume t) = s := by
        intro t
        rcases h.2.2 with e | ⟨r, e⟩ <;> rcases t with _ | t <;> simp only [Sys.step, e, List.getElem?_cons_zero, List.getElem?_cons_succ, List.getElem?_nil]
      simp only [roundRobin, familyEv]
      split
      · rw [res]; exact h
      · generalize (Nat.unpair (Nat.unpair n).2).2 = t
        rcases h.2.2 with e | ⟨r, e⟩ <;> rcases t with _ | t
        · simp only [Sys.step, e, List.getElem?_cons_zero, Bool.false_eq_true, if_false, hk]
          exact ⟨h.1, h.2.1, .inr ⟨.error .slConnection, by simp [Sys.put, e]⟩⟩
        all_goals
          simp only [Sys.step, e, List.getElem?_cons_zero, List.getElem?_cons_succ, List.getElem?_nil]
          refine ⟨h.1, h.2.1, ?_⟩
          simp
      all_goals rw [net]; exact h
    have key : ∀ n, ((after sampleEnv 0 5 firstEvs).at sampleEnv roundRobin n).g.lock = none ∧
        ((after sampleEnv 0 5 firstEvs).at sampleEnv roundRobin n).g.conns = [] ∧
        (((after sampleEnv 0 5 firstEvs).at sampleEnv roundRobin n).tasks = [.opening q k] ∨
          ∃ r, ((after sampleEnv 0 5 firstEvs).at sampleEnv roundRobin n).tasks = [.done r]) := by
      intro n
      induction n with
      | zero => exact ⟨by decide +kernel, List.length_eq_zero_iff.1 (by decide +kernel), .inl ht⟩
      | succ n ih => exact step _ n ih
    intro n u _ h
    rw [Sys.holding, (key n).1] at h
    cases h

end SL
