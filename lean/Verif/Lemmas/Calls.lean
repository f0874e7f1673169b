import Verif.Lemmas.Blocks
/-!
# What each API call does
-/
set_option linter.unusedVariables false

namespace SL

open Co (state modify makeRequest pause closeConn withLock tryExcept ofExcept)

theorem userAsks_conn (h : List Act) (a : Act) (ha : a.conn) : userAsks (h ++ [a]) = userAsks h := by
  cases a with
  | ask c code data =>
    have : code ∈ connectCodes := ha
    simp [userAsks, this]
  | _ => simp [userAsks]

theorem userAsks_ask (h : List Act) (c : Nat) (code : Int) (data : Bytes) (hc : code ∉ connectCodes) :
    userAsks (h ++ [.ask c code data]) = userAsks h ++ [(code, data)] := by
  simp [userAsks, hc]

/-- A condition on the requests made outside connection sequences. -/
theorem hc_asks {I : List Act → Prop} {P : List (Int × Bytes) → Prop} (hI : ∀ h, P (userAsks h) → I h) :
    HC I (fun h => P (userAsks h)) :=
  ⟨hI, fun h a hh ha => by rw [userAsks_conn h a ha]; exact hh⟩

/-- So far `l0` and then at most `n` copies of one request; a second one only after a forced disconnection. -/
def Sent (l0 : List (Int × Bytes)) (code : Int) (payload : Except PyErr Bytes) (n : Nat) (h : List Act) : Prop :=
  ∃ k data, k ≤ n ∧ (0 < k → payload = .ok data) ∧ userAsks h = l0 ++ List.replicate k (code, data) ∧ (2 ≤ k → Closed h)

theorem Sent.mono {l0 : List (Int × Bytes)} {code : Int} {payload : Except PyErr Bytes} {n m : Nat} {h : List Act}
    (s : Sent l0 code payload n h) (hm : n ≤ m) : Sent l0 code payload m h := by
  obtain ⟨k, data, hk, hp, e, hcl⟩ := s
  exact ⟨k, data, Nat.le_trans hk hm, hp, e, hcl⟩

theorem Sent.zero {l0 : List (Int × Bytes)} {h : List Act} (hh : userAsks h = l0) (code : Int) (payload : Except PyErr Bytes) :
    Sent l0 code payload 0 h :=
  ⟨0, [], Nat.le_refl _, fun h => absurd h (by decide), by simp [hh], fun h => absurd h (by decide)⟩

theorem Closed.more {h : List Act} (hc : Closed h) (l : List Act) : Closed (h ++ l) := by
  obtain ⟨c, hc⟩ := hc
  exact ⟨c, by simp [hc]⟩

theorem Sent.ask {l0 : List (Int × Bytes)} {code : Int} {payload : Except PyErr Bytes} {n : Nat} {h : List Act}
    (hs : Sent l0 code payload n h) (c : Nat) {data : Bytes} (hc : code ∉ connectCodes) (hp : payload = .ok data)
    (hcl : n = 0 ∨ Closed h) :
    Sent l0 code payload (n + 1) (h ++ [.ask c code data]) := by
  obtain ⟨k, d, hk, hd, e, _⟩ := hs
  refine ⟨k + 1, data, by omega, fun _ => hp, ?_, ?_⟩
  · have : List.replicate k (code, d) = List.replicate k (code, data) := by
      cases k with
      | zero => rfl
      | succ k =>
        have := hd (by omega)
        rw [hp] at this
        cases this
        rfl
    rw [userAsks_ask _ _ _ _ hc, e, this, List.replicate_succ', List.append_assoc]
  · intro h2
    rcases hcl with h0 | hcl
    · omega
    · exact hcl.more _

/-- A condition on the requests made outside connection sequences and on disconnections. -/
theorem hc_sent {I : List Act → Prop} {l0 : List (Int × Bytes)} {code : Int} {payload : Except PyErr Bytes} {n : Nat}
    (hI : ∀ h, Sent l0 code payload n h → I h) : HC I (Sent l0 code payload n) := by
  refine ⟨hI, fun h a hh ha => ?_⟩
  obtain ⟨k, data, hk, hp, e, hcl⟩ := hh
  exact ⟨k, data, hk, hp, by rw [userAsks_conn h a ha]; exact e, fun h2 => (hcl h2).more _⟩

section calls
variable {E : Env} {U : Prop} {X : List Act → Val → Prop} [hX : XC E X] {I : List Act → Prop} {t : Nat} {L N : Prop}

/-- A setter's request. -/
theorem wp_connectedAck {code : Int} {payload : Except PyErr Bytes} {l0 : List (Int × Bytes)} (hcode : code ∉ connectCodes)
    (hI : ∀ h, Sent l0 code payload 2 h → I h) {h : List Act} {g : Gw} (s : St U X t L N h g) (hh : userAsks h = l0) :
    (connectedRequest (ackRequest code payload)).wp (mon E U X I) t (fun h' o g' => St U X t L N h' g' ∧
      Sent l0 code payload 2 h' ∧
      (o = .ok () → ∃ data, payload = .ok data ∧ EndsWith h' code data (some []))) h g := by
  have hA : ∀ g, AskOk U t code g := fun g => askOk_other
    (by rintro rfl; exact hcode (by decide)) (by rintro rfl; exact hcode (by decide))
  have hc : ∀ n, n ≤ 2 → HC I (fun h => Sent l0 code payload n h) := fun n hn =>
    hc_sent (fun h x => hI h (x.mono hn))
  have hm : ∀ n, n + 1 ≤ 2 → ∀ c r h g, St U X t L N h g → Sent l0 code payload n h → (n = 0 ∨ Closed h) →
      (ackRequest code payload c r).wp (mon E U X I) t (fun h' o g' => St U X t L N h' g' ∧
      Sent l0 code payload (n + 1) h' ∧
      (o = .ok () → ∃ data, payload = .ok data ∧ EndsWith h' code data (some []))) h g := by
    intro n hn c r h g s hh hcl
    refine Co.wp_mono ?_ _ _ _ (wp_ackRequest (H0 := fun h => Sent l0 code payload n h)
      (H1 := fun h => Sent l0 code payload (n + 1) h) (hc n (by omega)) (hc (n + 1) hn)
      (fun h x => x.mono (by omega)) (fun data hp => hh.ask c hcode hp hcl) (hA g) s hh)
    intro h' o g' hq
    refine ⟨hq.1, hq.2.1, fun ho => ?_⟩
    obtain ⟨data, l, hp, e, _⟩ := hq.2.2.2.1 ho
    exact ⟨data, hp, h, c, e⟩
  refine wp_connectedRequest (H0 := fun h => Sent l0 code payload 0 h) (H1 := fun h => Sent l0 code payload 1 h)
    (hc 0 (by omega)) (hc 1 (by omega)) (fun h x => x.mono (by omega)) s (.zero hh _ _) ?_ ?_ ?_
  · intro h e g s hh
    exact ⟨s, hh.mono (by omega), by simp⟩
  · intro c r h g _ s hh
    refine Co.wp_mono ?_ _ _ _ (hm 0 (by omega) c r h g s hh (.inl rfl))
    intro h o g hq
    cases o with
    | ok a => exact ⟨hq.1, hq.2.1.mono (by omega), hq.2.2⟩
    | error e => exact ⟨hq.1, hq.2.1⟩
  · intro c r h g _ s hh
    exact hm 1 (by omega) c r h g s hh.1 (.inr hh.2)

/-- `async_send_message`. -/
theorem wp_send {code : Int} {data : Bytes} (hU : U → code ≠ 12522 ∧ code ≠ 12524)
    (hI : ∀ h, (code ∉ connectCodes → Sent [] code (.ok data) 2 h) → I h) {h : List Act} {g : Gw} (s : St U X t L N h g)
    (hh : userAsks h = []) :
    (connectedRequest (fun c r => makeRequest c code data r)).wp (mon E U X I) t (fun h' o g' => St U X t L N h' g' ∧
      (code ∉ connectCodes → Sent [] code (.ok data) 2 h') ∧ (∀ v, o = .ok v → EndsWith h' code data v)) h g := by
  have hA : ∀ g, AskOk U t code g := fun g u => ⟨fun e => absurd e (hU u).1, fun e => absurd e (hU u).2⟩
  have hc : ∀ n, n ≤ 2 → HC I (fun h => code ∉ connectCodes → Sent [] code (.ok data) n h) := fun n hn =>
    ⟨fun h x => hI h (fun y => (x y).mono hn), fun h a hh ha y => (hc_sent (I := fun _ => True) (fun _ _ => trivial)).conn h a (hh y) ha⟩
  have hm : ∀ n, n + 1 ≤ 2 → ∀ c r h g, St U X t L N h g → (code ∉ connectCodes → Sent [] code (.ok data) n h) → (n = 0 ∨ Closed h) →
      (makeRequest c code data r).wp (mon E U X I) t (fun h' o g' => St U X t L N h' g' ∧
      (code ∉ connectCodes → Sent [] code (.ok data) (n + 1) h') ∧ (∀ v, o = .ok v → EndsWith h' code data v)) h g := by
    intro n hn c r h g s hh hcl
    have h1 : code ∉ connectCodes → Sent [] code (.ok data) (n + 1) (h ++ [.ask c code data]) :=
      fun x => (hh x).ask c x rfl hcl
    have h2 : ∀ o, code ∉ connectCodes → Sent [] code (.ok data) (n + 1) (h ++ [.ask c code data, .got o]) := by
      intro o x
      have e : h ++ [.ask c code data, .got o] = (h ++ [.ask c code data]) ++ [Act.got o] := by simp
      rw [e]
      exact (hc (n + 1) hn).conn _ (.got o) h1 trivial x
    have hx : (makeRequest c code data r >>= fun v => (pure v : Co _)).wp (mon E U X I) t (fun h' o g' => St U X t L N h' g' ∧
      (code ∉ connectCodes → Sent [] code (.ok data) (n + 1) h') ∧ (∀ v, o = .ok v → EndsWith h' code data v)) h g := by
      refine wp_makeRequest (hA g) ((hc (n + 1) hn).I _ h1) (fun o => (hc (n + 1) hn).I _ (h2 o)) ?_ ?_
      · intro g' v hr
        refine ⟨s.asked E (hA g) _ hr, h2 _, ?_⟩
        intro v' hv
        cases hv
        exact ⟨h, c, rfl⟩
      · intro g' e hr
        exact ⟨s.asked E (hA g) _ hr, h2 _, by simp⟩
    refine ⟨hx.1, hx.2.1, fun g' o hr => ⟨(hx.2.2 g' o hr).1, ?_⟩⟩
    have := (hx.2.2 g' o hr).2
    cases o <;> exact this
  refine wp_connectedRequest (H0 := fun h => code ∉ connectCodes → Sent [] code (.ok data) 0 h)
    (H1 := fun h => code ∉ connectCodes → Sent [] code (.ok data) 1 h)
    (hc 0 (by omega)) (hc 1 (by omega)) (fun h x y => (x y).mono (by omega)) s (fun _ => .zero hh _ _) ?_ ?_ ?_
  · intro h e g s hh
    exact ⟨s, fun x => (hh x).mono (by omega), by simp⟩
  · intro c r h g _ s hh
    refine Co.wp_mono ?_ _ _ _ (hm 0 (by omega) c r h g s hh (.inl rfl))
    intro h o g hq
    cases o with
    | ok a => exact ⟨hq.1, fun x => (hq.2.1 x).mono (by omega), hq.2.2⟩
    | error e => exact ⟨hq.1, hq.2.1⟩
  · intro c r h g _ s hh
    exact hm 1 (by omega) c r h g s hh.1 (.inr hh.2)

theorem After.refl (h : List Act) : After h h := ⟨[], by simp⟩

theorem After.trans {a b c : List Act} (h : After a b) (h' : After b c) : After a c := by
  obtain ⟨l, rfl⟩ := h
  obtain ⟨m, rfl⟩ := h'
  exact ⟨l ++ m, by simp⟩

theorem After.more {a b : List Act} (h : After a b) (l : List Act) : After a (b ++ l) := h.trans ⟨l, rfl⟩

/-- A getter's request. -/
theorem wp_pollSent {key : Path} {D : Gw → Decoder} {code : Int} {payload : Except PyErr Bytes} {l0 : List (Int × Bytes)}
    (hD : ∀ g, (D g).query = some (code, payload)) (hkey : ∀ g, (D g).rawPath = key) (hcode : code ∉ connectCodes)
    {h : List Act} {g : Gw} (hI : ∀ h', Sent l0 code payload 2 h' → After h h' → I h') (s : St U X t L N h g) (hh : userAsks h = l0) :
    (poll key (queryRequest E D code payload)).wp (mon E U X I) t (fun h' o g' => St U X t L N h' g' ∧
      Sent l0 code payload 2 h' ∧ After h h' ∧
      (o = .ok () → ∃ data k, payload = .ok data ∧ 1 ≤ k ∧ k ≤ 2 ∧ userAsks h' = l0 ++ List.replicate k (code, data) ∧
        (2 ≤ k → Closed h') ∧ ∃ v, EndsWith h' code data v ∧ Kept E D key v g')) h g := by
  have hc : ∀ n, n ≤ 2 → HC I (fun h' => Sent l0 code payload n h' ∧ After h h') := fun n hn =>
    ⟨fun h' x => hI h' (x.1.mono hn) x.2,
      fun h' a x ha => ⟨(hc_sent (I := fun _ => True) (fun _ _ => trivial)).conn h' a x.1 ha, x.2.more _⟩⟩
  refine Co.wp_mono ?_ _ _ _ (wp_poll (E := E) (hc 0 (by omega)) (hc 1 (by omega)) (hc 2 (by omega)) (fun h x => ⟨x.1.mono (by omega), x.2⟩)
    (fun h x => ⟨x.1.mono (by omega), x.2⟩) hD hkey (fun h c data hs hp => ⟨hs.1.ask c hcode hp (.inl rfl), hs.2.more _⟩)
    (fun h c data hs hcl hp => ⟨hs.1.ask c hcode hp (.inr hcl), hs.2.more _⟩)
    ⟨by rintro rfl; exact hcode (by decide), by rintro rfl; exact hcode (by decide)⟩ s ⟨.zero hh _ _, .refl _⟩)
  intro h' o g' hq
  refine ⟨hq.1, hq.2.1.1, hq.2.1.2, fun ho => ?_⟩
  obtain ⟨l, c, p, v, e, hkept⟩ := hq.2.2.2 ho
  obtain ⟨k, data, hk, hp, e2, hcl⟩ := hq.2.1.1
  have e3 : userAsks h' = l0 ++ userAsks l ++ [(code, p)] := by
    rw [e, ← hh]
    simp [userAsks, hcode]
  rw [e2, List.append_assoc] at e3
  have e4 := List.append_cancel_left e3
  have hk1 : 1 ≤ k := by
    cases k with
    | zero => simp at e4
    | succ k => omega
  have hpd : p = data := by
    have : (code, p) ∈ List.replicate k (code, data) := by rw [e4]; simp
    have := (List.mem_replicate.1 this).2
    cases this
    rfl
  subst hpd
  exact ⟨p, k, hp (by omega), hk1, hk, e2, hcl, v, ⟨h ++ l, c, by rw [e]⟩, hkept⟩

/-! ## Plans of requests -/

theorem Each.weaken {α : Type} {lo hi lo' hi' : Nat} {plan l : List α} (h : Each lo hi plan l) (h1 : lo' ≤ lo) (h2 : hi ≤ hi') :
    Each lo' hi' plan l := by
  induction h with
  | nil => exact .nil
  | snoc x n _ hl hh ih => exact .snoc x n ih (by omega) (by omega)

theorem Each.extend {α : Type} {hi : Nat} {plan l : List α} (h : Each 0 hi plan l) (more : List α) : Each 0 hi (plan ++ more) l := by
  induction more generalizing plan with
  | nil => simpa using h
  | cons x xs ih =>
    have := ih (plan := plan ++ [x]) (by simpa using Each.snoc x 0 h (Nat.le_refl _) (Nat.zero_le _))
    simpa using this

theorem Closed.after {h h' : List Act} (hc : Closed h) (ha : After h h') : Closed h' := by
  obtain ⟨l, rfl⟩ := ha
  exact hc.more l

theorem CfgAsked.after {h h' : List Act} (hc : CfgAsked h) (ha : After h h') : CfgAsked h' := by
  obtain ⟨l, rfl⟩ := ha
  obtain ⟨c, p, hc⟩ := hc
  exact ⟨c, p, by simp [hc]⟩

theorem Done.part {plan : List (Int × Bytes)} {h : List Act} (hd : Done plan h) : Part plan h :=
  ⟨hd.1.weaken (by omega) (by omega), fun hc => hd.2 hc ▸ List.prefix_refl _⟩

theorem Part.extend {plan : List (Int × Bytes)} {h : List Act} (hp : Part plan h) (more : List (Int × Bytes)) :
    Part (plan ++ more) h :=
  ⟨hp.1.extend more, fun hc => (hp.2 hc).trans (List.prefix_append _ _)⟩

theorem Done.sent {plan : List (Int × Bytes)} {h h' : List Act} {code : Int} {data : Bytes} (hd : Done plan h)
    (hs : Sent (userAsks h) code (.ok data) 2 h') (ha : After h h') : Part (plan ++ [(code, data)]) h' := by
  obtain ⟨k, d, hk, hp, e, hcl⟩ := hs
  have hr : List.replicate k (code, d) = List.replicate k (code, data) := by
    cases k with
    | zero => rfl
    | succ k => cases hp (by omega); rfl
  rw [hr] at e
  refine ⟨?_, fun hc => ?_⟩
  · rw [e]
    exact .snoc _ k (hd.1.weaken (by omega) (by omega)) (by omega) hk
  · have h1 : ¬ Closed h := fun x => hc (x.after ha)
    have h2 : k ≤ 1 := by
      by_cases h2 : 2 ≤ k
      · exact absurd (hcl h2) hc
      · omega
    rw [e, hd.2 h1]
    have : k = 0 ∨ k = 1 := by omega
    rcases this with rfl | rfl
    · simp
    · simp

theorem Done.done {plan : List (Int × Bytes)} {h h' : List Act} {code : Int} {data : Bytes} {k : Nat} (hd : Done plan h)
    (h1 : 1 ≤ k) (hk : k ≤ 2) (e : userAsks h' = userAsks h ++ List.replicate k (code, data)) (hcl : 2 ≤ k → Closed h')
    (ha : After h h') : Done (plan ++ [(code, data)]) h' := by
  refine ⟨?_, fun hc => ?_⟩
  · rw [e]
    exact .snoc _ k hd.1 h1 hk
  · have h1' : ¬ Closed h := fun x => hc (x.after ha)
    have h2 : k = 1 := by
      by_cases h2 : 2 ≤ k
      · exact absurd (hcl h2) hc
      · omega
    rw [e, hd.2 h1', h2]
    rfl

theorem flag_bit (f i : Nat) : (0x10 <<< i) &&& f ≠ 0 ↔ f.testBit (i + 4) = true := by
  have e : 0x10 <<< i = 2 ^ (i + 4) := by
    rw [Nat.shiftLeft_eq, Nat.pow_add, Nat.mul_comm]
  rw [e]
  have : 2 ^ (i + 4) &&& f = if f.testBit (i + 4) then 2 ^ (i + 4) else 0 := by
    apply Nat.eq_of_testBit_eq
    intro j
    rw [Nat.testBit_and, Nat.testBit_two_pow]
    by_cases hj : i + 4 = j
    · subst hj
      cases h : f.testBit (i + 4) <;> simp [h]
    · cases h : f.testBit (i + 4) <;> simp [hj]
  rw [this]
  cases f.testBit (i + 4) <;> simp

theorem pump_payload (i : Nat) (hi : i < 8) : packObjs [.int 0, .int i] = .ok (leBytes 4 0 ++ leBytes 4 i) := by
  have : ∀ i : Nat, i < 8 → packObjs [.int 0, .int i] = .ok (leBytes 4 0 ++ leBytes 4 i) := by decide +kernel
  exact this i hi

/-- One round of the pump loop. -/
theorem wp_getPump {plan : List (Int × Bytes)} {i : Nat} (hi : i < 8) {h : List Act} {g : Gw} (hd : Done plan h) (hIh : I h)
    (hI : ∀ f h', equipmentFlags g.data = .ok f → f.testBit (i + 4) = true → Part (plan ++ [pumpRequest i]) h' → After h h' → I h')
    (s : St U X t L N h g) :
    (getPump E i).wp (mon E U X I) t (fun h' o g' => St U X t L N h' g' ∧ After h h' ∧ I h' ∧
      (o = .ok () → ∃ f, equipmentFlags g.data = .ok f ∧
        (f.testBit (i + 4) = true ∧ Done (plan ++ [pumpRequest i]) h' ∨ f.testBit (i + 4) = false ∧ h' = h))) h g := by
  simp only [getPump, wp_state]
  rw [wp_ofExcept_bind]
  cases hf : equipmentFlags g.data with
  | error e => exact ⟨s, .refl _, hIh, by simp⟩
  | ok f =>
    simp only
    split
    · rename_i hb
      rw [flag_bit] at hb
      rw [wp_modify]
      refine ⟨Upd.pumps, ?_⟩
      change Co.wp _ _ _ _ _ (g.putLastNew [.s "pumps"] (.dict []))
      have s1 : St U X t L N h (g.putLastNew [.s "pumps"] (.dict [])) := s.quiet (.same rfl rfl rfl rfl rfl) rfl rfl
      have hp := pump_payload i hi
      refine Co.wp_mono ?_ _ _ _ (wp_pollSent (E := E) (D := fun _ => .pump i) (code := 12584) (payload := packObjs [.int 0, .int i])
        (l0 := userAsks h) (fun _ => rfl) (fun _ => rfl) (by decide) ?_ s1 rfl)
      · intro h' o g' hq
        have hsent := hq.2.1
        rw [hp] at hsent
        refine ⟨hq.1, hq.2.2.1, hI f h' hf hb (hd.sent hsent hq.2.2.1) hq.2.2.1, fun ho => ⟨f, rfl, .inl ⟨hb, ?_⟩⟩⟩
        obtain ⟨data, k, e1, h1, h2, e2, hcl, _⟩ := hq.2.2.2 ho
        rw [hp] at e1
        cases e1
        exact hd.done h1 h2 e2 hcl hq.2.2.1
      · intro h' hs ha
        rw [hp] at hs
        exact hI f h' hf hb (hd.sent hs ha) ha
    · rename_i hb
      rw [flag_bit] at hb
      exact ⟨s, .refl _, hIh, fun _ => ⟨f, rfl, .inr ⟨by simpa using hb, rfl⟩⟩⟩

/-- The pumps below `n` have been polled after the requests `p0`. -/
def PumpsDone (Kn : Prop) (F : Nat) (p0 : List (Int × Bytes)) (n : Nat) (h : List Act) : Prop :=
  ∃ is, List.Sublist is (List.range n) ∧ Done (p0 ++ is.map pumpRequest) h ∧ (Kn → ¬ CfgAsked h → is = flaggedPumps F n)

/-- Pumps are being polled as part of a larger plan. -/
def PumpsPart (Kn : Prop) (F : Nat) (p0 post : List (Int × Bytes)) (h : List Act) : Prop :=
  ∃ is, List.Sublist is (List.range 8) ∧ Part (p0 ++ is.map pumpRequest ++ post) h ∧ (Kn → ¬ CfgAsked h → is = flaggedPumps F 8)

theorem flagged_succ (F n : Nat) : flaggedPumps F (n + 1) = flaggedPumps F n ++ (if F.testBit (n + 4) then [n] else []) := by
  simp only [flaggedPumps, List.range_succ, List.filter_append]
  congr 1
  simp only [List.filter_cons, List.filter_nil]

theorem flagged_prefix (F : Nat) {n m : Nat} (h : n ≤ m) : flaggedPumps F n <+: flaggedPumps F m := by
  induction h with
  | refl => exact List.prefix_refl _
  | step _ ih =>
    rw [Nat.succ_eq_add_one, flagged_succ]
    exact ih.trans (List.prefix_append _ _)

theorem flagged_sublist (F n : Nat) : List.Sublist (flaggedPumps F n) (List.range n) := List.filter_sublist

theorem range_sublist {n m : Nat} (h : n ≤ m) : List.Sublist (List.range n) (List.range m) := List.range_sublist.2 h

/-- What has been done so far is part of the whole. -/
theorem pumpsPart_of {Kn : Prop} {F : Nat} {p0 post : List (Int × Bytes)} {n : Nat} (hn : n ≤ 8) {is : List Nat} {h : List Act}
    (h1 : List.Sublist is (List.range n)) (h2 : Part (p0 ++ is.map pumpRequest) h) (h3 : Kn → ¬ CfgAsked h → is = flaggedPumps F n) :
    PumpsPart Kn F p0 post h := by
  by_cases hk : Kn ∧ ¬ CfgAsked h
  · obtain ⟨l, hl⟩ := flagged_prefix F hn
    refine ⟨flaggedPumps F 8, flagged_sublist F 8, ?_, fun _ _ => rfl⟩
    rw [← hl, ← h3 hk.1 hk.2]
    have := h2.extend (l.map pumpRequest ++ post)
    simpa using this
  · exact ⟨is, h1.trans (range_sublist hn), h2.extend post, fun k c => absurd ⟨k, c⟩ hk⟩

theorem wp_getPumpsFrom {Kn : Prop} {F : Nat} {p0 post : List (Int × Bytes)}
    (hF : Kn → ∀ h d, X h d → CfgAsked h ∨ equipmentFlags d = .ok F) (hI : ∀ h, PumpsPart Kn F p0 post h → I h) :
    ∀ (n i : Nat) {h : List Act} {g : Gw}, i + n = 8 → St U X t L N h g → PumpsDone Kn F p0 i h →
    (getPumpsFrom E n i).wp (mon E U X I) t (fun h' o g' => St U X t L N h' g' ∧ After h h' ∧ I h' ∧
      (o = .ok () → PumpsDone Kn F p0 8 h')) h g
  | 0, i, h, g, hi, s, hd => by
    obtain rfl : i = 8 := by omega
    refine ⟨s, .refl _, ?_, fun _ => hd⟩
    obtain ⟨is, h1, h2, h3⟩ := hd
    exact hI _ (pumpsPart_of (Nat.le_refl _) h1 h2.part h3)
  | n + 1, i, h, g, hi, s, hd => by
    have hd' := hd
    obtain ⟨is, h1, h2, h3⟩ := hd
    simp only [getPumpsFrom]
    have h3' : ∀ {h' : List Act}, After h h' → Kn → ¬ CfgAsked h' → is = flaggedPumps F i :=
      fun ha k c => h3 k (fun x => c (x.after ha))
    have hflag : ∀ {f : Nat} {h' : List Act}, equipmentFlags g.data = .ok f → After h h' → Kn → ¬ CfgAsked h' → f = F := by
      intro f h' hf ha k c
      rcases hF k h g.data s.x with hx | hx
      · exact absurd (hx.after ha) c
      · rw [hx] at hf; cases hf; rfl
    have hsub : List.Sublist (is ++ [i]) (List.range (i + 1)) := by
      rw [List.range_succ]
      exact h1.append (List.Sublist.refl _)
    have e : p0 ++ is.map pumpRequest ++ [pumpRequest i] = p0 ++ (is ++ [i]).map pumpRequest := by simp
    refine Co.wp_bind' _ _ _ _ (Co.wp_mono ?_ _ _ _ (wp_getPump (E := E) (by omega) h2
      (hI _ (pumpsPart_of (by omega) h1 h2.part h3)) ?_ s))
    · intro h' o g' hq
      obtain ⟨s', ha, hI', hok⟩ := hq
      cases o with
      | error x => exact ⟨s', ha, hI', by simp⟩
      | ok u =>
        simp only [Co.seqPost]
        have hd2 : PumpsDone Kn F p0 (i + 1) h' := by
          obtain ⟨f, hf, hb | hb⟩ := hok rfl
          · refine ⟨is ++ [i], hsub, e ▸ hb.2, fun k c => ?_⟩
            rw [flagged_succ, ← hflag hf ha k c, hb.1, if_pos rfl, hflag hf ha k c, ← h3' ha k c]
          · obtain ⟨hb, rfl⟩ := hb
            refine ⟨is, h1.trans (range_sublist (by omega)), h2, fun k c => ?_⟩
            rw [flagged_succ, ← hflag hf ha k c, hb, hflag hf ha k c, ← h3' ha k c]
            simp
        refine Co.wp_mono ?_ _ _ _ (wp_getPumpsFrom hF hI n (i + 1) (by omega) s' hd2)
        intro h2 o g2 hq
        exact ⟨hq.1, ha.trans hq.2.1, hq.2.2⟩
    · intro f h' hf hb hp ha
      refine hI _ (pumpsPart_of (n := i + 1) (by omega) hsub (e ▸ hp) fun k c => ?_)
      rw [flagged_succ, ← hflag hf ha k c, hb, if_pos rfl, hflag hf ha k c, ← h3' ha k c]

/-- A getter inside a plan. -/
theorem wp_pollPlan {key : Path} {D : Gw → Decoder} {code : Int} {payload : Except PyErr Bytes} {data : Bytes} {plan : List (Int × Bytes)}
    (hD : ∀ g, (D g).query = some (code, payload)) (hkey : ∀ g, (D g).rawPath = key) (hcode : code ∉ connectCodes)
    (hp : payload = .ok data) {h : List Act} {g : Gw}
    (hI : ∀ h', Part (plan ++ [(code, data)]) h' → After h h' → I h') (s : St U X t L N h g) (hd : Done plan h) :
    (poll key (queryRequest E D code payload)).wp (mon E U X I) t (fun h' o g' => St U X t L N h' g' ∧ After h h' ∧ I h' ∧
      (o = .ok () → Done (plan ++ [(code, data)]) h' ∧ ∃ v, EndsWith h' code data v ∧ Kept E D key v g')) h g := by
  refine Co.wp_mono ?_ _ _ _ (wp_pollSent (E := E) (l0 := userAsks h) hD hkey hcode ?_ s rfl)
  · intro h' o g' hq
    have hsent := hq.2.1
    rw [hp] at hsent
    refine ⟨hq.1, hq.2.2.1, hI _ (hd.sent hsent hq.2.2.1) hq.2.2.1, fun ho => ?_⟩
    obtain ⟨data, k, e1, h1, h2, e2, hcl, hv⟩ := hq.2.2.2 ho
    rw [hp] at e1
    cases e1
    exact ⟨hd.done h1 h2 e2 hcl hq.2.2.1, hv⟩
  · intro h' hs ha
    rw [hp] at hs
    exact hI _ (hd.sent hs ha) ha

/-- `async_update`. -/
theorem wp_asyncUpdate {Kn : Prop} {F : Nat}
    (hF : Kn → ∀ h d, X h d → CfgAsked h ∨ equipmentFlags d = .ok F)
    (hI : ∀ h, PumpsPart Kn F [statusRequest] [chemistryRequest, scgRequest, dateTimeRequest] h → I h)
    {h : List Act} {g : Gw} (s : St U X t L N h g) (hh : userAsks h = []) :
    (asyncUpdate E).wp (mon E U X I) t (fun h' o g' => St U X t L N h' g' ∧ I h' ∧
      (o = .ok () → ∃ is, List.Sublist is (List.range 8) ∧
        Done ([statusRequest] ++ is.map pumpRequest ++ [chemistryRequest, scgRequest, dateTimeRequest]) h' ∧
        (Kn → ¬ CfgAsked h' → is = flaggedPumps F 8))) h g := by
  have hd0 : Done [] h := ⟨by rw [hh]; exact .nil, fun _ => hh⟩
  have part0 : ∀ h', Part [statusRequest] h' → I h' := by
    intro h' hp
    refine hI _ ⟨flaggedPumps F 8, flagged_sublist F 8, ?_, fun _ _ => rfl⟩
    have := hp.extend ((flaggedPumps F 8).map pumpRequest ++ [chemistryRequest, scgRequest, dateTimeRequest])
    simpa using this
  simp only [asyncUpdate, wp_state]
  split
  · refine Co.wp_bind' _ _ _ _ (Co.wp_mono ?_ _ _ _ (wp_pollPlan (E := E) (D := fun _ => .status) (data := leBytes 4 0)
      (fun _ => rfl) (fun _ => rfl) (by decide) (by decide) (fun h' hp _ => part0 h' hp) s hd0))
    intro h1 o g1 hq
    obtain ⟨s1, ha1, hI1, hok⟩ := hq
    cases o with
    | error e => exact ⟨s1, hI1, by simp⟩
    | ok u =>
      have hd1 : Done [statusRequest] h1 := (hok rfl).1
      simp only [Co.seqPost]
      have hpd : PumpsDone Kn F [statusRequest] 0 h1 := ⟨[], List.Sublist.refl _, by simpa using hd1, fun _ _ => rfl⟩
      refine Co.wp_bind' _ _ _ _ (Co.wp_mono ?_ _ _ _ (wp_getPumpsFrom (E := E) hF hI 8 0 (by omega) s1 hpd))
      intro h2 o g2 hq
      obtain ⟨s2, ha2, hI2, hok⟩ := hq
      cases o with
      | error e => exact ⟨s2, hI2, by simp⟩
      | ok u =>
        obtain ⟨is, hs, hd2, hk⟩ := hok rfl
        have partR : ∀ (more rest : List (Int × Bytes)) (h' : List Act), more ++ rest = [chemistryRequest, scgRequest, dateTimeRequest] →
            Part ([statusRequest] ++ is.map pumpRequest ++ more) h' → After h2 h' → I h' := by
          intro more rest h' he hp ha
          refine hI _ ⟨is, hs, ?_, fun k c => hk k (fun x => c (x.after ha))⟩
          rw [← he]
          have := hp.extend rest
          simpa using this
        simp only [Co.seqPost]
        refine Co.wp_bind' _ _ _ _ (Co.wp_mono ?_ _ _ _ (wp_pollPlan (E := E) (D := fun _ => .chemistry) (data := leBytes 4 0)
          (fun _ => rfl) (fun _ => rfl) (by decide) (by decide)
          (fun h' hp ha => partR [chemistryRequest] [scgRequest, dateTimeRequest] h' rfl hp ha) s2 hd2))
        intro h3 o g3 hq
        obtain ⟨s3, ha3, hI3, hok⟩ := hq
        cases o with
        | error e => exact ⟨s3, hI3, by simp⟩
        | ok u =>
          have hd3 := (hok rfl).1
          simp only [Co.seqPost]
          refine Co.wp_bind' _ _ _ _ (Co.wp_mono ?_ _ _ _ (wp_pollPlan (E := E) (D := fun _ => .scg) (data := leBytes 4 0)
            (fun _ => rfl) (fun _ => rfl) (by decide) (by decide)
            (fun h' hp ha => partR [chemistryRequest, scgRequest] [dateTimeRequest] h' rfl
              (by simpa [chemistryRequest, scgRequest] using hp) (ha3.trans ha)) s3 hd3))
          intro h4 o g4 hq
          obtain ⟨s4, ha4, hI4, hok⟩ := hq
          cases o with
          | error e => exact ⟨s4, hI4, by simp⟩
          | ok u =>
            have hd4 := (hok rfl).1
            simp only [Co.seqPost]
            refine Co.wp_mono ?_ _ _ _ (wp_pollPlan (E := E) (D := fun g => .dateTime g.now) (data := [])
              (fun _ => rfl) (fun _ => rfl) (by decide) rfl
              (fun h' hp ha => partR [chemistryRequest, scgRequest, dateTimeRequest] [] h' rfl
                (by simpa [chemistryRequest, scgRequest, dateTimeRequest] using hp) ((ha3.trans ha4).trans ha)) s4 hd4)
            intro h5 o g5 hq
            obtain ⟨s5, ha5, hI5, hok⟩ := hq
            refine ⟨s5, hI5, fun ho => ⟨is, hs, ?_, fun k c => hk k (fun x => c (x.after ((ha3.trans ha4).trans ha5)))⟩⟩
            have := (hok ho).1
            simpa [chemistryRequest, scgRequest, dateTimeRequest] using this
  · exact ⟨s, part0 _ (by simpa using hd0.part.extend [statusRequest]), by simp⟩

theorem apply_addListener (g : Gw) (code cb : Nat) :
    g.apply (fun g => (g.addListener code cb).2) = (g.addListener code cb).2 := by
  simp only [Gw.apply, Gw.addListener]
  split <;> rfl

theorem attached_register (g : Gw) (c code h : Nat) : (g.net c (.register code h)).attached = g.attached := by
  simp only [Gw.attached, Gw.connected, Gw.net, List.getElem?_modify]
  cases g.cmProto with
  | none => rfl
  | some c' =>
    simp only
    cases g.conns[c']? with
    | none => rfl
    | some x =>
      by_cases hc : c = c'
      · simp [hc, World.step, Proto.register]
      · simp [hc]

/-- Calls that only connect, disconnect, register or unregister make no request of their own. -/
theorem wp_subscribe {H : List Act → Prop} (hc : HC I H) (cb code : Nat) {h : List Act} {g : Gw} (s : St U X t L N h g) (hh : H h) :
    (subscribe cb code).wp (mon E U X I) t (fun h' o g' => St U X t L N h' g' ∧ H h' ∧
      (∀ v, o = .ok v → (g.attached = false ∧ v = none ∧ g' = g) ∨
        (g.attached = true ∧ v = some ⟨code, (g.addListener code cb).1, cb⟩ ∧ g'.isClient = true))) h g := by
  simp only [subscribe, wp_state]
  split
  · rename_i c ha hcm
    rw [wp_modify, apply_addListener]
    refine ⟨Upd.listen cb code, ?_⟩
    have hq : Quiet g (g.addListener code cb).2 ∧ (g.addListener code cb).2.log = g.log ∧
        (g.addListener code cb).2.data = g.data ∧ (aget code (g.addListener code cb).2.listeners).isSome ∧
        (g.addListener code cb).2.attached = true := by
      simp only [Gw.addListener]
      split
      · rename_i i hi
        exact ⟨.same rfl rfl rfl rfl rfl, rfl, rfl, by simp [hi], ha⟩
      · exact ⟨.same rfl rfl rfl rfl rfl, rfl, rfl, mem_aget_isSome (x := (code, g.sets.length)) (by simp), ha⟩
    generalize (g.addListener code cb).2 = g1 at hq
    generalize (g.addListener code cb).1 = i0
    obtain ⟨hq, hl, hdt, hli, hat⟩ := hq
    have s1 := s.quiet hq hl hdt
    rw [wp_modify]
    refine ⟨Upd.register c code hli, ?_⟩
    change Co.wp _ _ _ _ _ (g1.net c (.register code (commonHandler code)))
    have s2 := s1.quiet (quiet_net _ c (.register code (commonHandler code))) rfl rfl
    have hn2 : (g1.net c (.register code (commonHandler code))).listeners ≠ [] := by
      intro e
      change g1.listeners = [] at e
      rw [e] at hli
      cases hli
    have ha2 : (g1.net c (.register code (commonHandler code))).attached = true := by
      refine (attached_register g1 c _ _).trans hat
    generalize g1.net c (.register code (commonHandler code)) = g2 at s2 hn2 ha2
    rw [wp_state]
    refine Co.wp_bind' _ _ _ _ (Co.wp_mono (Q := fun h' o g' => St U X t L N h' g' ∧ H h' ∧ (o = .ok () → g'.isClient = true)) ?_ _ _ _ ?_)
    · intro h o g hq
      cases o with
      | error e => exact ⟨hq.1, hq.2.1, by simp⟩
      | ok u =>
        refine ⟨hq.1, hq.2.1, fun v hv => .inr ⟨ha, ?_, hq.2.2 rfl⟩⟩
        cases hv
        rfl
    · simp only [whenCo]
      split
      · refine Co.wp_mono ?_ _ _ _ (wp_subscribeGateway hc s2 hh)
        intro h o g hq
        refine ⟨hq.1, hq.2.1, fun ho => ?_⟩
        rcases hq.2.2 ho with h1 | ⟨h1, _⟩
        · exact h1
        · rw [ha2] at h1
          cases h1
      · rename_i hne
        refine ⟨s2, hh, fun _ => ?_⟩
        simpa [Gw.clientNeeded, hn2] using hne
  · rename_i hx
    refine ⟨s, hh, fun v hv => .inl ⟨?_, ?_, rfl⟩⟩
    · cases hat : g.attached with
      | false => rfl
      | true =>
        cases hp : g.cmProto with
        | none => simp [Gw.attached, hp] at hat
        | some c => exact absurd hp (hx c hat)
    · cases hv
      rfl

/-- A keepalive task. -/
theorem wp_pingTask (hI : ∀ h, Sent [] 16 (.ok []) 1 h → I h) {h : List Act} {g : Gw} (s : St U X t L N h g) (hh : userAsks h = []) :
    pingTask.wp (mon E U X I) t (fun h' o g' => St U X t L N h' g' ∧ Sent [] 16 (.ok []) 1 h') h g := by
  simp only [pingTask, wp_state]
  split
  · rename_i c _
    have hc : ∀ n, n ≤ 1 → HC I (fun h => Sent [] 16 (.ok []) n h) := fun n hn => hc_sent (fun h x => hI h (x.mono hn))
    refine Co.wp_tryExcept _ _ _ _ (Co.wp_mono ?_ _ _ _ (wp_ackRequest (E := E) (hc 0 (by omega)) (hc 1 (by omega))
      (fun h x => x.mono (by omega)) (fun data hp => (Sent.zero hh _ _).ask c (by decide) hp (.inl rfl))
      (askOk_other (by decide) (by decide)) s (.zero hh _ _)))
    intro h o g hq
    cases o with
    | ok u => exact ⟨hq.1, hq.2.1⟩
    | error e =>
      simp only
      split
      · exact ⟨hq.1, hq.2.1⟩
      · exact ⟨hq.1, hq.2.1⟩
  · exact ⟨s, (Sent.zero hh _ _).mono (by omega)⟩

end calls
end SL
