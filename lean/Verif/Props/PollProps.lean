import Verif.Props.GatewayProps
/-!
# C36, C72: polling pumps, updating everything
-/
set_option linter.unusedVariables false

namespace SL

/-- Where the equipment flags are kept. -/
abbrev flagsPath : Path := [.s "controller", .s "equipment", .s "flags"]

/-- Only configuration messages change the equipment flags. -/
theorem flags_only_config (f : String → Except PyErr Rat) (D : Decoder) (hD : D ≠ .config) (m : Bytes) (d : Val) :
    Val.look flagsPath (decodeWith (D.prog f) m d).2 = Val.look flagsPath d := by
  cases D with
  | config => exact absurd rfl hD
  | status => exact gets_stay fits_status m d _ (by simp)
  | colorUpdate => exact gets_stay fits_colorUpdate m d _ (by simp)
  | dateTime now => exact gets_stay (fits_dateTime now) m d _ (by simp)
  | scg => exact C58_frame_below f .scg m d _ _ (by simp [Spec.branches])
  | chemistry => exact C58_frame_below f .chemistry m d _ _ (by simp [Spec.branches])
  | pump i => exact C58_frame_below f (.pump i) m d _ _ (by simp [Spec.branches])
  | version => exact C58_frame_below f .version m d _ _ (by simp [Spec.branches])
  | equipment => exact C58_frame_below f .equipment m d _ _ (by simp [Spec.branches])

theorem getData_strings : ∀ (ks : List String) (d : Val), getData false (ks.map Key.s) d = .ok ((Val.look (ks.map Key.s) d).getD .null)
  | [], d => rfl
  | k :: ks, d => by
    have ih := getData_strings ks
    cases d with
    | dict kv =>
      simp only [List.map_cons, getData, getNext, Val.look]
      by_cases h : aget (Key.s k) kv = none
      · simp [h]
      · obtain ⟨v, h⟩ := Option.ne_none_iff_exists'.1 h
        simp only [h, Option.getD_some, Option.bind_some]
        split
        · rename_i hv
          subst hv
          cases ks <;> simp [Val.look]
        · exact ih v
    | _ => simp [getData, getNext, Val.look]

theorem equipmentFlags_of {d : Val} {F : Nat} (h : Val.look flagsPath d = some (.int F)) : equipmentFlags d = .ok F := by
  have := getData_strings ["controller", "equipment", "flags"] d
  simp only [List.map_cons, List.map_nil] at this
  simp only [equipmentFlags, this, h, Option.getD_some, Int.toNat_natCast]

/-- The flags are `F`, or the task has reloaded the configuration. -/
def FlagsAre (F : Nat) : List Act → Val → Prop := fun h d => CfgAsked h ∨ Val.look flagsPath d = some (.int F)

instance (E : Env) (F : Nat) : XC E (FlagsAre F) where
  act h a d hx := hx.imp (fun x => x.after ⟨[a], rfl⟩) id
  data h d D code payload b hx hq hg hb := by
    rcases hx with hx | hx
    · exact .inl hx
    by_cases hD : D = .config
    · subst hD
      simp only [Decoder.query, Option.some.injEq, Prod.mk.injEq] at hq
      obtain ⟨rfl, rfl⟩ := hq
      obtain ⟨h0, c, p, rfl, _⟩ := hg
      exact .inl ⟨c, p, by simp⟩
    · right
      rw [flags_only_config _ D hD]
      exact hx

/-- While the call `a` made after `es` is running, over the history `es2`, the equipment flags in the data are `F`. -/
def FlagsStay (E : Env) (clientId maxRetries : Int) (es : List Ev) (a : Call) (es2 : List Ev) (F : Nat) : Prop :=
  Val.look flagsPath (after E clientId maxRetries es).g.data = some (.int F) ∧
  ∀ pre post, es2 = pre ++ post → Val.look flagsPath (after E clientId maxRetries (es ++ .call a :: pre)).g.data = some (.int F)

theorem pumpsPart_nil {Kn : Prop} {F : Nat} {p0 post : List (Int × Bytes)} {h : List Act} (hp : Part p0 h) : PumpsPart Kn F p0 post h := by
  refine ⟨flaggedPumps F 8, flagged_sublist F 8, ?_, fun _ _ => rfl⟩
  have := hp.extend ((flaggedPumps F 8).map pumpRequest ++ post)
  simpa using this

theorem hc_pumps {Kn : Prop} {F : Nat} {p0 post : List (Int × Bytes)} : HC (PumpsPart Kn F p0 post) (PumpsPart Kn F p0 post) := by
  refine ⟨fun _ h => h, fun h a hh ha => ?_⟩
  obtain ⟨is, hs, hp, hk⟩ := hh
  refine ⟨is, hs, ⟨by rw [userAsks_conn h a ha]; exact hp.1, fun hc => ?_⟩, fun k hc => hk k (fun x => hc (x.after ⟨[a], rfl⟩))⟩
  rw [userAsks_conn h a ha]
  exact hp.2 (fun x => hc (x.after ⟨[a], rfl⟩))

/-- The empty plan has been carried out. -/
theorem done_nil : Done [] [] := ⟨.nil, fun _ => rfl⟩

theorem getPumps_run (E : Env) (clientId maxRetries : Int) (es : List Ev) (es2 : List Ev) {X : List Act → Val → Prop} [XC E X] (Kn : Prop) (F : Nat)
    (hF : Kn → ∀ h d, X h d → CfgAsked h ∨ equipmentFlags d = .ok F)
    (hO : ∀ pre ev post, es2 = pre ++ ev :: post → ev.own (after E clientId maxRetries es).tasks.length = false →
        ∀ h, X h (after E clientId maxRetries (es ++ .call .getPumps :: pre)).g.data →
          X h (after E clientId maxRetries (es ++ .call .getPumps :: (pre ++ [ev]))).g.data)
    (hx : X [] (after E clientId maxRetries es).g.data) :
    PumpsPart Kn F [] [] (actsOf E clientId maxRetries es .getPumps es2) ∧
    ∀ r, resultOf E clientId maxRetries es .getPumps es2 = some (.ok r) → PumpsDone Kn F [] 8 (actsOf E clientId maxRetries es .getPumps es2) := by
  have h := call_run (E := E) (clientId := clientId) (maxRetries := maxRetries) (U := False) (X := X) (I := PumpsPart Kn F [] [])
    hc_pumps (Q := fun h o => ∀ r, o = .ok r → PumpsDone Kn F [] 8 h) es .getPumps es2 (fun u => u.elim) hO hx
    (pumpsPart_nil done_nil.part) ?_
  · exact ⟨h.1, fun r hr => h.2 _ hr r rfl⟩
  · rintro g rfl s
    refine Co.wp_bind' _ _ _ _ (Co.wp_mono ?_ _ _ _ (wp_getPumpsFrom (E := E) hF (fun _ h => h) 8 0 (by omega) s
      ⟨[], List.Sublist.refl _, done_nil, fun _ _ => rfl⟩))
    intro h o g hq
    cases o with
    | error e => intro r hr; cases hr
    | ok u =>
      intro r hr
      exact hq.2.2.2 rfl

/-- **C36**: while the equipment flags in the data are `F` and the call has not had to reload the configuration,
its requests (connection sequences aside) are the status requests of the pumps flagged in `F`, in increasing order:
while it runs, those made so far, and when it has returned, all of them; each exactly once unless the connection was
torn down (then each at most twice). -/
theorem C36_pumps (E : Env) (clientId maxRetries : Int) (es es2 : List Ev) (F : Nat)
    (hF : FlagsStay E clientId maxRetries es .getPumps es2 F)
    (hc : ¬ CfgAsked (actsOf E clientId maxRetries es .getPumps es2)) :
    Part ((flaggedPumps F 8).map pumpRequest) (actsOf E clientId maxRetries es .getPumps es2) ∧
    ∀ r, resultOf E clientId maxRetries es .getPumps es2 = some (.ok r) →
      Done ((flaggedPumps F 8).map pumpRequest) (actsOf E clientId maxRetries es .getPumps es2) := by
  obtain ⟨h1, h2⟩ := getPumps_run E clientId maxRetries es es2 (X := FlagsAre F) True F
    (fun _ h d hx => hx.imp id equipmentFlags_of)
    (fun pre ev post he ho h hx => hx.imp id (fun _ => hF.2 (pre ++ [ev]) post (by simp [he]))) (.inr hF.1)
  · obtain ⟨is, hs, hp, hk⟩ := h1
    rw [hk trivial hc] at hp
    refine ⟨by simpa using hp, fun r hr => ?_⟩
    obtain ⟨is, hs, hp, hk⟩ := h2 r hr
    rw [hk trivial hc] at hp
    simpa using hp

/-- Whatever happens, also when the configuration changes meanwhile: it asks for pumps below 8 only, in increasing
order. -/
theorem C36_order (E : Env) (clientId maxRetries : Int) (es es2 : List Ev) :
    ∃ is, List.Sublist is (List.range 8) ∧ Part (is.map pumpRequest) (actsOf E clientId maxRetries es .getPumps es2) := by
  obtain ⟨h1, h2⟩ := getPumps_run E clientId maxRetries es es2 (X := noX) False 0 (fun k => k.elim) (fun _ _ _ _ _ _ _ => trivial) trivial
  obtain ⟨is, hs, hp, hk⟩ := h1
  exact ⟨is, hs, by simpa using hp⟩

/-- Without known flags it raises ValueError and asks for nothing. -/
theorem C36_unknown (E : Env) (clientId maxRetries : Int) (es : List Ev)
    (h : ∀ n, Val.look flagsPath (after E clientId maxRetries es).g.data ≠ some (.int n)) :
    Refuses E clientId maxRetries es .getPumps .valueError := by
  have hf : equipmentFlags (after E clientId maxRetries es).g.data = .error .valueError := by
    have := getData_strings ["controller", "equipment", "flags"] (after E clientId maxRetries es).g.data
    simp only [List.map_cons, List.map_nil] at this
    simp only [equipmentFlags, this]
    cases hl : Val.look flagsPath (after E clientId maxRetries es).g.data with
    | none => simp
    | some v =>
      cases v with
      | int n => exact absurd hl (h n)
      | _ => simp
  simp only [Refuses, after_snoc]
  generalize after E clientId maxRetries es = s at hf
  have e : settle s.tasks.length (Call.getPumps.co E) s.g = (.done (.error .valueError), s.g) := by
    have e1 : Call.getPumps.co E = (do getPump E 0; getPumpsFrom E 7 1) >>= fun _ => (pure Res.none : Co Res) := rfl
    rw [e1]
    simp only [getPump]
    change settle s.tasks.length ((Co.bind (Co.bind (Co.bind (Co.ofExcept (equipmentFlags s.g.data)) _) _) _)) s.g = _
    rw [hf]
    rfl
  simp only [Sys.step, Sys.spawn, e]

/-- The plan of an update when pumps `is` are polled. -/
def updatePlan (is : List Nat) : List (Int × Bytes) :=
  [statusRequest] ++ is.map pumpRequest ++ [chemistryRequest, scgRequest, dateTimeRequest]

theorem update_run (E : Env) (clientId maxRetries : Int) (es : List Ev) (es2 : List Ev) {X : List Act → Val → Prop} [XC E X] (Kn : Prop) (F : Nat)
    (hF : Kn → ∀ h d, X h d → CfgAsked h ∨ equipmentFlags d = .ok F)
    (hO : ∀ pre ev post, es2 = pre ++ ev :: post → ev.own (after E clientId maxRetries es).tasks.length = false →
        ∀ h, X h (after E clientId maxRetries (es ++ .call .update :: pre)).g.data →
          X h (after E clientId maxRetries (es ++ .call .update :: (pre ++ [ev]))).g.data)
    (hx : X [] (after E clientId maxRetries es).g.data) :
    PumpsPart Kn F [statusRequest] [chemistryRequest, scgRequest, dateTimeRequest] (actsOf E clientId maxRetries es .update es2) ∧
    ∀ r, resultOf E clientId maxRetries es .update es2 = some (.ok r) → ∃ is, List.Sublist is (List.range 8) ∧
      Done (updatePlan is) (actsOf E clientId maxRetries es .update es2) ∧
      (Kn → ¬ CfgAsked (actsOf E clientId maxRetries es .update es2) → is = flaggedPumps F 8) := by
  have h := call_run (E := E) (clientId := clientId) (maxRetries := maxRetries) (U := False) (X := X)
    (I := PumpsPart Kn F [statusRequest] [chemistryRequest, scgRequest, dateTimeRequest])
    hc_pumps (Q := fun h o => ∀ r, o = .ok r → ∃ is, List.Sublist is (List.range 8) ∧ Done (updatePlan is) h ∧
      (Kn → ¬ CfgAsked h → is = flaggedPumps F 8)) es .update es2 (fun u => u.elim) hO hx
    (pumpsPart_nil (done_nil.part.extend [statusRequest])) ?_
  · exact ⟨h.1, fun r hr => h.2 _ hr r rfl⟩
  · rintro g rfl s
    refine Co.wp_bind' _ _ _ _ (Co.wp_mono ?_ _ _ _ (wp_asyncUpdate (E := E) hF (fun _ h => h) s rfl))
    intro h o g hq
    cases o with
    | error e => intro r hr; cases hr
    | ok u =>
      intro r hr
      exact hq.2.2 rfl

/-- **C72**: an update asks for the status, the flagged pumps in increasing order, chemistry, chlorinator and clock, in
this order. -/
theorem C72_update (E : Env) (clientId maxRetries : Int) (es es2 : List Ev) (F : Nat)
    (hF : FlagsStay E clientId maxRetries es .update es2 F)
    (hc : ¬ CfgAsked (actsOf E clientId maxRetries es .update es2)) :
    Part (updatePlan (flaggedPumps F 8)) (actsOf E clientId maxRetries es .update es2) ∧
    ∀ r, resultOf E clientId maxRetries es .update es2 = some (.ok r) →
      Done (updatePlan (flaggedPumps F 8)) (actsOf E clientId maxRetries es .update es2) := by
  obtain ⟨h1, h2⟩ := update_run E clientId maxRetries es es2 (X := FlagsAre F) True F
    (fun _ h d hx => hx.imp id equipmentFlags_of)
    (fun pre ev post he ho h hx => hx.imp id (fun _ => hF.2 (pre ++ [ev]) post (by simp [he]))) (.inr hF.1)
  · obtain ⟨is, hs, hp, hk⟩ := h1
    rw [hk trivial hc] at hp
    refine ⟨hp, fun r hr => ?_⟩
    obtain ⟨is, hs, hp, hk⟩ := h2 r hr
    rw [hk trivial hc] at hp
    exact hp

/-- Whatever happens meanwhile, the order is that, with some pumps below 8 in increasing order. -/
theorem C72_order (E : Env) (clientId maxRetries : Int) (es es2 : List Ev) :
    (∃ is, List.Sublist is (List.range 8) ∧ Part (updatePlan is) (actsOf E clientId maxRetries es .update es2)) ∧
    ∀ r, resultOf E clientId maxRetries es .update es2 = some (.ok r) →
      ∃ is, List.Sublist is (List.range 8) ∧ Done (updatePlan is) (actsOf E clientId maxRetries es .update es2) := by
  obtain ⟨h1, h2⟩ := update_run E clientId maxRetries es es2 (X := noX) False 0 (fun k => k.elim) (fun _ _ _ _ _ _ _ => trivial) trivial
  obtain ⟨is, hs, hp, hk⟩ := h1
  refine ⟨⟨is, hs, hp⟩, fun r hr => ?_⟩
  obtain ⟨is, hs, hp, hk⟩ := h2 r hr
  exact ⟨is, hs, hp⟩

/-- An update of a gateway without any data raises ScreenLogicError and asks for nothing. -/
theorem C72_empty (E : Env) (clientId maxRetries : Int) (es : List Ev) (h : (after E clientId maxRetries es).g.data.truthy = false) :
    Refuses E clientId maxRetries es .update .slError := by
  simp only [Refuses, after_snoc]
  generalize after E clientId maxRetries es = s at h
  have e : settle s.tasks.length (Call.update.co E) s.g = (.done (.error .slError), s.g) := by
    change settle s.tasks.length (Co.bind (if s.g.data.truthy then _ else Co.throw .slError) _) s.g = _
    rw [h]
    rfl
  simp only [Sys.step, Sys.spawn, e]

/-- The flags are `F`, as a test. -/
def flagsTest (F : Nat) (d : Val) : Bool :=
  match Val.look flagsPath d with
  | some (.int n) => n == F
  | _ => false

theorem flagsTest_eq {F : Nat} {d : Val} (h : flagsTest F d = true) : Val.look flagsPath d = some (.int F) := by
  unfold flagsTest at h
  split at h
  · rename_i n hn
    rw [hn, eq_of_beq h]
  · cases h

theorem flagsStay_of {E : Env} {clientId maxRetries : Int} {es : List Ev} {a : Call} {es2 : List Ev} {F : Nat}
    (h0 : flagsTest F (after E clientId maxRetries es).g.data = true)
    (h : ∀ n, n < es2.length + 1 → flagsTest F (after E clientId maxRetries (es ++ .call a :: es2.take n)).g.data = true) :
    FlagsStay E clientId maxRetries es a es2 F := by
  refine ⟨flagsTest_eq h0, fun pre post he => ?_⟩
  have := flagsTest_eq (h pre.length (by rw [he, List.length_append]; omega))
  rwa [he, List.take_left] at this

/-- One pump is configured; it is asked for, and answers. -/
def pumpEvs : List Ev := reply 0 4 12585 [] ++ [.resume 1]

theorem C36_witness :
    FlagsStay sampleEnv 1 1 connectEvs .getPumps pumpEvs 32796 ∧ ¬ CfgAsked (actsOf sampleEnv 1 1 connectEvs .getPumps pumpEvs) ∧
    flaggedPumps 32796 8 = [0] ∧ resultOf sampleEnv 1 1 connectEvs .getPumps pumpEvs = some (.ok .none) := by
  refine ⟨flagsStay_of (by decide +kernel) (by decide +kernel), ?_, by decide, by decide +kernel⟩
  have e : actsOf sampleEnv 1 1 connectEvs .getPumps pumpEvs = [.ask 0 12584 [0, 0, 0, 0, 0, 0, 0, 0], .got (.ok (some []))] := by
    decide +kernel
  rw [e]
  rintro ⟨c, p, h⟩
  simp at h

/-- The update of the same gateway, with empty answers. -/
def updateEvs : List Ev :=
  reply 0 4 12527 [] ++ [.resume 1] ++ reply 0 5 12585 [] ++ [.resume 1] ++ reply 0 6 12593 [] ++ [.resume 1] ++
    reply 0 7 12573 [] ++ [.resume 1] ++ reply 0 8 8111 [] ++ [.resume 1]

theorem C72_witness :
    FlagsStay sampleEnv 1 1 connectEvs .update updateEvs 32796 ∧ ¬ CfgAsked (actsOf sampleEnv 1 1 connectEvs .update updateEvs) ∧
    resultOf sampleEnv 1 1 connectEvs .update updateEvs = some (.ok .none) := by
  refine ⟨flagsStay_of (by decide +kernel) (by decide +kernel), ?_, by decide +kernel⟩
  have e : actsOf sampleEnv 1 1 connectEvs .update updateEvs =
      [.ask 0 12526 [0, 0, 0, 0], .got (.ok (some [])), .ask 0 12584 [0, 0, 0, 0, 0, 0, 0, 0], .got (.ok (some [])),
       .ask 0 12592 [0, 0, 0, 0], .got (.ok (some [])), .ask 0 12572 [0, 0, 0, 0], .got (.ok (some [])),
       .ask 0 8110 [], .got (.ok (some []))] := by
    decide +kernel
  rw [e]
  rintro ⟨c, p, h⟩
  simp at h

end SL
