import Verif.Lemmas.Forceful
import Verif.Props.LivenessProps
import Verif.Props.KeepaliveProps
/-!
# C102: disconnecting ends
-/
set_option linter.unusedVariables false

namespace SL

theorem only_call (E : Env) (a : Call) (hs : setterPlan E a = none) {o f : Prop} (ho : (∀ force, a ≠ .disconnect force) → o) (hf : a = .disconnect false → f) :
    (a.co E).Only o f := by
  cases a with
  | disconnect force =>
    refine Co.only_bind (only_disconnect ?_) (fun _ => trivial)
    cases force with
    | true => exact .inl rfl
    | false => exact .inr (hf rfl)
  | connect x => exact Co.only_bind (only_connect (ho (by simp)) x) (fun _ => trivial)
  | update => exact Co.only_bind (only_update E (ho (by simp))) (fun _ => trivial)
  | getConfig => exact Co.only_bind (only_getConfig E (ho (by simp))) (fun _ => trivial)
  | getStatus => exact Co.only_bind (only_getStatus E (ho (by simp))) (fun _ => trivial)
  | getPumps => exact Co.only_bind (only_getPumpsFrom E (ho (by simp)) 8 0) (fun _ => trivial)
  | getChemistry => exact Co.only_bind (only_getChemistry E (ho (by simp))) (fun _ => trivial)
  | getScg => exact Co.only_bind (only_getScg E (ho (by simp))) (fun _ => trivial)
  | getDatetime => exact Co.only_bind (only_getDatetime E (ho (by simp))) (fun _ => trivial)
  | setCircuit x y => cases hs
  | setHeatTemp x y => cases hs
  | setHeatMode x y => cases hs
  | setColorLights x => cases hs
  | setScg x y z w => cases hs
  | setChem x y z w u v => cases hs
  | setDateTime x y => cases hs
  | subscribe cb code =>
    refine Co.only_bind (Co.only_state (fun g => ?_)) (fun _ => trivial)
    split
    · exact Co.only_bind (Co.only_modify _) (fun _ =>
        Co.only_bind (Co.only_modify _) (fun _ => Co.only_state (fun g =>
          Co.only_bind (Co.only_when (only_subscribeGateway (ho (by simp)))) (fun _ => trivial))))
    · trivial
  | send code data => exact Co.only_bind (only_connected (ho (by simp)) (fun c r => Co.only_make c _ _ r)) (fun _ => trivial)

theorem settle_call (E : Env) (a : Call) {o f : Prop} (ho : (∀ force, a ≠ .disconnect force) → o) (hf : a = .disconnect false → f) (t : Nat) (g : Gw) :
    (settle t (a.co E) g).1.Forced o f (settle t (a.co E) g).2 := by
  cases hp : setterPlan E a with
  | none => exact settle_forced t _ g (only_call E a hp ho hf)
  | some p =>
    rw [settle_look, setter_look E hp, ← settle_look]
    refine settle_forced t _ g (only_setter (ho ?_) _)
    rintro force rfl
    cases hp

section
variable {E : Env} {clientId maxRetries : Int} {es : List Ev} {σ : Nat → Ev}

local notation "S" => Sys.at E (after E clientId maxRetries es) σ

theorem at_spawn {n : Nat} {co : Co Res} {g0 : Gw} (h : (S n).step E (σ n) = Sys.spawn { S n with g := g0 } co) :
    (S (n + 1)).tasks[(S n).tasks.length]? = some (settle (S n).tasks.length co g0).1 ∧ (S (n + 1)).g = (settle (S n).tasks.length co g0).2 := by
  have : S (n + 1) = Sys.spawn { S n with g := g0 } co := h
  rw [this]
  simp [Sys.spawn]

theorem spawned_closable {o f : Prop} (hnf : ¬ f) (hf : Fair E (after E clientId maxRetries es) σ) {n : Nat} {x : Task}
    (hx : (S (n + 1)).tasks[(S n).tasks.length]? = some x) (hO : x.Forced o f (S (n + 1)).g) : Closable E (after E clientId maxRetries es) σ (S n).tasks.length := by
  intro m c i k hk
  refine forced_closable hnf hf hx hO ?_ hk
  apply Nat.le_of_not_lt
  intro hlt
  have := at_task (show m ≤ n by omega) (lt_of_getElem? hk)
  omega

theorem spawned_shut {f : Prop} {n : Nat} {x : Task} (hx : (S (n + 1)).tasks[(S n).tasks.length]? = some x) (hO : x.Forced False f (S (n + 1)).g) (m : Nat)
    (hm : n + 1 ≤ m) : ¬ (S m).opening (S n).tasks.length := by
  rintro ⟨q, k, hk⟩
  obtain ⟨y, h1, h2⟩ := at_forced hx hO hm
  rw [hk] at h1
  cases h1
  exact h2.only.1

theorem ends_or_waits {t : Nat} (h : EndsOrStuck E (after E clientId maxRetries es) σ t) : (∃ n, (S n).ended t) ∨ ∃ n, ∀ m, n ≤ m → (S m).waiting t := by
  rcases h with h | ⟨n, k, h⟩
  · exact .inl h
  · exact .inr ⟨n, fun m hm => ⟨k, (h m hm).1⟩⟩

/-- **C102** A forced disconnection ends, unless it waits for the subscription lock for ever. -/
theorem C102_forced (hf : Fair E (after E clientId maxRetries es) σ) {n : Nat} (hσ : σ n = .call (.disconnect true)) :
    (∃ m, (S m).ended (S n).tasks.length) ∨ ∃ n', ∀ m, n' ≤ m → (S m).waiting (S n).tasks.length := by
  obtain ⟨h1, h2⟩ := at_spawn (E := E) (σ := σ) (clientId := clientId) (maxRetries := maxRetries) (es := es) (n := n) (co := (Call.disconnect true).co E) (g0 := (S n).g) (by rw [hσ]; rfl)
  have hO := settle_call E (.disconnect true) (o := False) (f := False) (fun h => absurd rfl (h true)) (by simp) (S n).tasks.length (S n).g
  rw [← h2] at hO
  exact ends_or_waits (task_ends (N := n + 1) hf (spawned_closable id hf h1 hO) (fun m hm _ => spawned_shut h1 hO m hm) (lt_of_getElem? h1))

/-- **C102**, in part: a graceful disconnection ends, unless it waits for the subscription lock for ever, if every message ever sent by hand
fitted a frame. -/
theorem C102_graceful_partial (hf : Fair E (after E clientId maxRetries es) σ) (hs : SendsFit es σ) {n : Nat} (hσ : σ n = .call (.disconnect false)) :
    (∃ m, (S m).ended (S n).tasks.length) ∨ ∃ n', ∀ m, n' ≤ m → (S m).waiting (S n).tasks.length := by
  obtain ⟨h1, h2⟩ := at_spawn (E := E) (σ := σ) (clientId := clientId) (maxRetries := maxRetries) (es := es) (n := n) (co := (Call.disconnect false).co E) (g0 := (S n).g) (by rw [hσ]; rfl)
  have hO := settle_call E (.disconnect false) (o := False) (f := True) (fun h => absurd rfl (h false)) (fun _ => trivial) (S n).tasks.length (S n).g
  rw [← h2] at hO
  exact ends_or_waits (task_ends (N := n + 1) hf (closable_of hf (at_encodable hs) _) (fun m hm _ => spawned_shut h1 hO m hm) (lt_of_getElem? h1))

/-- **C102** Every other call ends, whatever was sent by hand, unless it waits for the subscription lock for ever or TCP connections are made
for it again and again. -/
theorem C102_calls (hf : Fair E (after E clientId maxRetries es) σ) {n N : Nat} {a : Call} (hσ : σ n = .call a) (ha : a ≠ .disconnect false)
    (hN : ∀ m, N ≤ m → σ m = .opened (S n).tasks.length true → ¬ (S m).opening (S n).tasks.length) :
    (∃ m, (S m).ended (S n).tasks.length) ∨ ∃ n', ∀ m, n' ≤ m → (S m).waiting (S n).tasks.length := by
  obtain ⟨h1, h2⟩ := at_spawn (E := E) (σ := σ) (clientId := clientId) (maxRetries := maxRetries) (es := es) (n := n) (co := a.co E) (g0 := (S n).g) (by rw [hσ]; rfl)
  have hO := settle_call E a (o := True) (f := False) (fun _ => trivial) ha (S n).tasks.length (S n).g
  rw [← h2] at hO
  exact ends_or_waits (task_ends hf (spawned_closable id hf h1 hO) hN (lt_of_getElem? h1))

/-- **C102** The background tasks (keepalive, unsubscription) end, unless they wait for the subscription lock for ever. -/
theorem C102_background (hf : Fair E (after E clientId maxRetries es) σ) {n : Nat} (hσ : (∃ c, σ n = .ping c) ∨ σ n = .runUnsub)
    (hn : (S n).tasks.length < (S (n + 1)).tasks.length) :
    (∃ m, (S m).ended (S n).tasks.length) ∨ ∃ n', ∀ m, n' ≤ m → (S m).waiting (S n).tasks.length := by
  have hex : ∃ co g0, (co.Only False False : Prop) ∧ (S n).step E (σ n) = Sys.spawn { S n with g := g0 } co := by
    change (S n).tasks.length < ((S n).step E (σ n)).tasks.length at hn
    rcases hσ with ⟨c, hσ⟩ | hσ <;> rw [hσ] at hn ⊢ <;> simp only [Sys.step] at hn ⊢
    · split at hn
      · split at hn
        · rename_i x hx hc
          exact ⟨pingCo, (S n).g.countPing c, only_ping, by rw [if_pos hc]⟩
        · exact absurd hn (Nat.lt_irrefl _)
      · exact absurd hn (Nat.lt_irrefl _)
    · split at hn
      · rename_i hc
        exact ⟨unsubCo, (S n).g.takeUnsub, only_unsub, by rw [if_pos hc]⟩
      · exact absurd hn (Nat.lt_irrefl _)
  obtain ⟨co, g0, hO, he⟩ := hex
  obtain ⟨h1, h2⟩ := at_spawn he
  have hO := settle_forced (S n).tasks.length co g0 hO
  rw [← h2] at hO
  exact ends_or_waits (task_ends (N := n + 1) hf (spawned_closable id hf h1 hO) (fun m hm _ => spawned_shut h1 hO m hm) (lt_of_getElem? h1))

end

/-! ## A graceful disconnection that hangs -/

/-- Fair events other than the loss of a connection. -/
def idleEv (k : Nat) : Ev :=
  let r := k.unpair.2
  match k.unpair.1 with
  | 0 => .resume r
  | 1 => .opened r false
  | 2 => .net r.unpair.1 (.timeout r.unpair.2)
  | 3 => .net r.unpair.1 (.resume r.unpair.2)
  | 4 => .net r.unpair.1 (.wake r.unpair.2)
  | 5 => .net r.unpair.1 (.closeResume r.unpair.2)
  | _ => .net r.unpair.1 (.closeFinish r.unpair.2)

/-- Each of them again and again. -/
def idleRobin (n : Nat) : Ev := idleEv n.unpair.2

theorem idleRobin_recurs (k : Nat) : Recurs idleRobin (idleEv k) :=
  fun n => ⟨Nat.pair n k, Nat.left_le_pair n k, by rw [idleRobin, Nat.unpair_pair]⟩

/-- A connection on which nothing happens but that a closing waits for a request that is given up. -/
structure World.Hangs (w : World) : Prop where
  reqs : ∀ (r : Nat) (q : Req), w.reqs[r]? = some q → q.ended
  closers : ∀ (i : Nat) (y : Closer), w.closers[i]? = some y → ∃ f l, y = .gathering (f :: l) ∧ w.p.futs[f]? = some .pending ∧ ∀ g ∈ l, w.p.futs[g]? ≠ some .cancelled
  up : w.p.tclosing = false

theorem hangs_step {w : World} (h : w.Hangs) (r : Nat) :
    w.step (.timeout r) = w ∧ w.step (.resume r) = w ∧ w.step (.wake r) = w ∧ w.step (.closeResume r) = w ∧ w.step (.closeFinish r) = w := by
  have hq : ∀ q, w.reqs[r]? = some q → ∃ o, q.phase = .done o := fun q hq => h.reqs r q hq
  cases hr : w.reqs[r]? with
  | none =>
    refine ⟨by simp only [World.step, hr], by simp only [World.step, hr], by simp only [World.step, hr], ?_⟩
    cases hc : w.closers[r]? with
    | none => exact ⟨by simp only [World.step, hc], by simp only [World.step, hc]⟩
    | some y =>
      obtain ⟨f, l, rfl, h1, h2⟩ := h.closers r y hc
      have : gatherDone w.p (f :: l) = false := by
        simp only [gatherDone, Bool.or_eq_false_iff, List.any_cons, List.all_cons, h1]
        refine ⟨by simp, ?_⟩
        simp only [Bool.or_eq_false_iff, List.any_eq_false]
        exact ⟨by simp, fun g hg => by simpa using h2 g hg⟩
      exact ⟨by simp only [World.step, hc, this]; rfl, by simp only [World.step, hc]⟩
  | some q =>
    obtain ⟨o, ho⟩ := hq q hr
    refine ⟨by simp only [World.step, hr, ho], by simp only [World.step, hr, ho], by simp only [World.step, hr, ho]; rfl, ?_⟩
    cases hc : w.closers[r]? with
    | none => exact ⟨by simp only [World.step, hc], by simp only [World.step, hc]⟩
    | some y =>
      obtain ⟨f, l, rfl, h1, h2⟩ := h.closers r y hc
      have : gatherDone w.p (f :: l) = false := by
        simp only [gatherDone, Bool.or_eq_false_iff, List.any_cons, List.all_cons, h1]
        refine ⟨by simp, ?_⟩
        simp only [Bool.or_eq_false_iff, List.any_eq_false]
        exact ⟨by simp, fun g hg => by simpa using h2 g hg⟩
      exact ⟨by simp only [World.step, hc, this]; rfl, by simp only [World.step, hc]⟩

/-- Everything has ended but closings that hang. -/
structure Sys.Hangs (s : Sys) : Prop where
  conns : ∀ x ∈ s.g.conns, x.w.Hangs
  tasks : ∀ (t : Nat) (x : Task), s.tasks[t]? = some x → (∃ r, x = .done r) ∨ ∃ c i k, x = .closing c i k ∧ s.g.closeEnded c i = false

theorem net_idle {g : Gw} (c : Nat) (e : Event) (h : ∀ x ∈ g.conns, x.w.step e = x.w) : g.net c e = g := by
  have : g.conns.modify c (fun x => { x with w := x.w.step e }) = g.conns := by
    apply List.ext_getElem?
    intro i
    rw [List.getElem?_modify]
    cases hx : g.conns[i]? with
    | none => rfl
    | some x =>
      have := h x (List.mem_of_getElem? hx)
      split <;> simp [this]
  cases g
  simp only [Gw.net] at this ⊢
  rw [this]

theorem hangs_idle (E : Env) {s : Sys} (h : s.Hangs) (n : Nat) : s.step E (idleRobin n) = s := by
  have net : ∀ c e, (∀ x ∈ s.g.conns, x.w.step e = x.w) → e ≠ .lost → s.step E (.net c e) = s := by
    intro c e he hl
    have h1 : s.g.lostCallback c e = s.g := by cases e <;> first | rfl | exact absurd rfl hl
    simp only [Sys.step, h1, net_idle c e he]
    split <;> rfl
  simp only [idleRobin, idleEv]
  split
  · generalize (Nat.unpair (Nat.unpair n).2).2 = t
    cases hx : s.tasks[t]? with
    | none => simp only [Sys.step, hx]
    | some x =>
      rcases h.tasks t x hx with ⟨r, rfl⟩ | ⟨c, i, k, rfl, hc⟩
      · simp only [Sys.step, hx]
      · simp only [Sys.step, hx, hc]; rfl
  · generalize (Nat.unpair (Nat.unpair n).2).2 = t
    cases hx : s.tasks[t]? with
    | none => simp only [Sys.step, hx]
    | some x =>
      rcases h.tasks t x hx with ⟨r, rfl⟩ | ⟨c, i, k, rfl, hc⟩
      · simp only [Sys.step, hx]
      · simp only [Sys.step, hx]
  · exact net _ _ (fun x hx => (hangs_step (h.conns x hx) _).1) (by simp)
  · exact net _ _ (fun x hx => (hangs_step (h.conns x hx) _).2.1) (by simp)
  · exact net _ _ (fun x hx => (hangs_step (h.conns x hx) _).2.2.1) (by simp)
  · exact net _ _ (fun x hx => (hangs_step (h.conns x hx) _).2.2.2.1) (by simp)
  · exact net _ _ (fun x hx => (hangs_step (h.conns x hx) _).2.2.2.2) (by simp)

theorem hangs_at (E : Env) {s : Sys} (h : s.Hangs) (n : Nat) : s.at E idleRobin n = s := by
  induction n with
  | zero => rfl
  | succ n ih => rw [Sys.at, ih, hangs_idle E h]

theorem hangs_fair (E : Env) {s : Sys} (h : s.Hangs) : Fair E s idleRobin where
  tasks t := by simpa [idleEv] using idleRobin_recurs (Nat.pair 0 t)
  opening t n := by
    obtain ⟨m, h1, h2⟩ := idleRobin_recurs (Nat.pair 1 t) n
    exact ⟨m, h1, false, by simpa [idleEv] using h2⟩
  timeouts c r := by simpa [idleEv] using idleRobin_recurs (Nat.pair 2 (Nat.pair c r))
  replies c r := by simpa [idleEv] using idleRobin_recurs (Nat.pair 3 (Nat.pair c r))
  pauses c r := by simpa [idleEv] using idleRobin_recurs (Nat.pair 4 (Nat.pair c r))
  gathers c r := by simpa [idleEv] using idleRobin_recurs (Nat.pair 5 (Nat.pair c r))
  closes c r := by simpa [idleEv] using idleRobin_recurs (Nat.pair 6 (Nat.pair c r))
  losses n c x hx ht := by
    rw [hangs_at E h] at hx
    rw [(h.conns x (List.mem_of_getElem? hx)).up] at ht
    cases ht

/-- A connected gateway after a message by hand with a type that does not fit a frame. -/
def misfitEvs : List Ev := connectEvs ++ [.call (.send 70000 [])]

/-- As a decidable test. -/
def World.hangs (w : World) : Bool :=
  w.reqs.all (fun q => match q.phase with | .done _ => true | _ => false) &&
  w.closers.all (fun y => match y with | .gathering (f :: l) => w.p.futs[f]? == some .pending && l.all (fun g => w.p.futs[g]? != some .cancelled) | _ => false) &&
  !w.p.tclosing

theorem hangs_of {w : World} (h : w.hangs = true) : w.Hangs := by
  simp only [World.hangs, Bool.and_eq_true, List.all_eq_true, Bool.not_eq_true'] at h
  obtain ⟨⟨h1, h2⟩, h3⟩ := h
  refine ⟨fun r q hq => ?_, fun i y hy => ?_, h3⟩
  · have := h1 q (List.mem_of_getElem? hq)
    split at this
    · rename_i o ho; exact ⟨o, ho⟩
    · cases this
  · have := h2 y (List.mem_of_getElem? hy)
    split at this
    · rename_i f l
      simp only [Bool.and_eq_true, beq_iff_eq, List.all_eq_true, bne_iff_ne] at this
      exact ⟨f, l, rfl, this⟩
    · cases this

/-- As a decidable test. -/
def Sys.hangs (s : Sys) : Bool :=
  s.g.conns.all (fun x => x.w.hangs) &&
  s.tasks.all (fun x => match x with | .done _ => true | .closing c i _ => !s.g.closeEnded c i | _ => false)

theorem sysHangs_of {s : Sys} (h : s.hangs = true) : s.Hangs := by
  simp only [Sys.hangs, Bool.and_eq_true, List.all_eq_true] at h
  refine ⟨fun x hx => hangs_of (h.1 x hx), fun t x hx => ?_⟩
  have := h.2 x (List.mem_of_getElem? hx)
  cases x with
  | done r => exact .inl ⟨r, rfl⟩
  | closing c i k => exact .inr ⟨c, i, k, rfl, by simpa using this⟩
  | _ => cases this

/-- **C102** is false of graceful disconnections: after a message by hand whose type does not fit a frame (the call raised struct.error), a graceful
disconnection of a healthy connection, with nothing else going on and the subscription lock free, never ends. -/
theorem C102_refuted :
    (after sampleEnv 0 5 misfitEvs).result 1 = some (.error .structError) ∧
    Fair sampleEnv (after sampleEnv 0 5 (misfitEvs ++ [.call (.disconnect false)])) idleRobin ∧
    ∀ n, let s := (after sampleEnv 0 5 (misfitEvs ++ [.call (.disconnect false)])).at sampleEnv idleRobin n
      ¬ s.ended (after sampleEnv 0 5 misfitEvs).tasks.length ∧ s.g.isConnected = true ∧ s.g.lock = none := by
  have hh : (after sampleEnv 0 5 (misfitEvs ++ [.call (.disconnect false)])).Hangs := sysHangs_of (by decide +kernel)
  have h1 : ((after sampleEnv 0 5 misfitEvs).result 1) = some (.error .structError) := by
    have : ((after sampleEnv 0 5 misfitEvs).result 1).map (fun r => match r with | .error e => e == .structError | .ok _ => false) = some true := by decide +kernel
    cases h : (after sampleEnv 0 5 misfitEvs).result 1 with
    | none => rw [h] at this; cases this
    | some r =>
      rw [h] at this
      cases r with
      | ok v => cases this
      | error e => simp at this; rw [this]
  have h2 : ((after sampleEnv 0 5 (misfitEvs ++ [.call (.disconnect false)])).result (after sampleEnv 0 5 misfitEvs).tasks.length).isNone = true := by decide +kernel
  refine ⟨h1, hangs_fair sampleEnv hh, fun n => ?_⟩
  rw [hangs_at sampleEnv hh n]
  refine ⟨fun h => h (Option.isNone_iff_eq_none.1 h2), by decide +kernel, by decide +kernel⟩

/-- The hypotheses of the other C102 theorems are met: on a connected gateway, a disconnection of either kind or a request. -/
theorem C102_witness : ∀ ev, ev = .call (.disconnect true) ∨ ev = .call (.disconnect false) ∨ ev = .call .getStatus →
    let σ : Nat → Ev := fun n => if n = 0 then ev else roundRobin (n - 1)
    Fair sampleEnv (after sampleEnv 0 5 connectEvs) σ ∧ SendsFit connectEvs σ ∧ σ 0 = ev ∧ (∀ n t, σ n ≠ .opened t true) ∧ (after sampleEnv 0 5 connectEvs).g.isConnected = true := by
  intro ev hev σ
  have again : ∀ ev', Recurs roundRobin ev' → Recurs σ ev' := by
    intro ev' h n
    obtain ⟨m, hm, he⟩ := h n
    exact ⟨m + 1, by omega, by simp only [σ]; rw [if_neg (by omega)]; exact he⟩
  have F := roundRobin_fair sampleEnv (after sampleEnv 0 5 connectEvs)
  refine ⟨⟨fun t => again _ (F.tasks t), fun t n => ?_, fun c r => again _ (F.timeouts c r), fun c r => again _ (F.replies c r), fun c r => again _ (F.pauses c r),
    fun c r => again _ (F.gathers c r), fun c r => again _ (F.closes c r), fun n c x _ _ => ?_⟩, ?_, rfl, ?_, by decide +kernel⟩
  · obtain ⟨m, hm, ok, he⟩ := F.opening t n
    exact ⟨m + 1, by omega, ok, by simp only [σ]; rw [if_neg (by omega)]; exact he⟩
  · obtain ⟨m, h1, h2⟩ := roundRobin_recurs (Nat.pair 7 c) n
    refine ⟨m + 1, by omega, ?_⟩
    simp only [σ]
    rw [if_neg (by omega)]
    simpa [familyEv] using h2
  · rintro code data (hm | ⟨n, hn⟩)
    · exact absurd hm (no_byHand (by decide +kernel) code data)
    · simp only [σ] at hn
      split at hn
      · rcases hev with rfl | rfl | rfl <;> cases hn
      · exact absurd hn ((roundRobin_kind _).2.2 _)
  · intro n t hn
    simp only [σ] at hn
    split at hn
    · rcases hev with rfl | rfl | rfl <;> cases hn
    · exact (roundRobin_kind _).1 t hn

/-- ... and after an idle minute the keepalive task. -/
theorem C102_background_witness :
    (after sampleEnv 1 1 idleEvs).tasks.length < ((after sampleEnv 1 1 idleEvs).step sampleEnv (.ping 0)).tasks.length := by decide +kernel

end SL
