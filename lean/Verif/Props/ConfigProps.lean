import Verif.Props.StatusProps
/-!
# C52: configuration; C61: equipment flags; C69: model names
-/
set_option linter.unusedSimpArgs false
namespace SL
open Spec
open Prog (rd rdString rdArray rdTime rdMsgString offset store setdefault lookup throw loop forRange)

abbrev minorPath : Path := [.s "adapter", .s "firmware", .s "minor"]

/-- A number or nothing. -/
def NumOrNone (v : Option Val) : Prop := v = none ∨ ∃ q, v = some (.flt q)

/-- The adapter's minor version in reachable data is a number or unknown. -/
theorem reachable_minor {f : String → Except PyErr Rat} {d : Val} (h : Reachable f d) :
    NumOrNone (Val.look minorPath d) := by
  induction h with
  | init => exact .inl rfl
  | @step d D buff _ ih =>
    cases D with
    | version =>
      show NumOrNone (Val.look minorPath ((decodeVersion f).run buff 0 d).2)
      unfold decodeVersion
      simp only [setdefault, rdMsgString, bind, Prog.bind, Prog.run]
      split
      · have h1 : Val.look minorPath (Val.putNew [.s "adapter"] (.dict []) d) = Val.look minorPath d :=
          look_putNew_empty d (by decide)
        split
        · rename_i s hs
          unfold floatPart
          split
          · simp only [Prog.throw, Prog.bind, Prog.run, h1]; exact ih
          · split
            · simp only [pure, Prog.bind]
              split
              · simp only [Prog.throw, Prog.bind, Prog.run, h1]; exact ih
              · split
                · simp only [pure, Prog.bind, store, Prog.run]
                  split
                  · rename_i q _ _ _
                    exact .inr ⟨_, look_put_below [.s "adapter", .s "firmware"] [.s "minor"] _ _⟩
                  · simp only [h1]; exact ih
                · simp only [Prog.throw, Prog.bind, Prog.run, h1]; exact ih
            · simp only [Prog.throw, Prog.bind, Prog.run, h1]; exact ih
        · simp only [h1]; exact ih
      · exact ih
    | _ => rw [C58_frame_below f _ buff d _ _ (by simp [branches])]; exact ih

/-- The adapter's minor version as a number, if known. -/
def minorOf (d : Val) : Option Rat :=
  match Val.look minorPath d with
  | some (.flt q) => some q
  | _ => none

theorem and_ffff (n : Nat) : n &&& 0xFFFF = n % 65536 := Nat.and_two_pow_sub_one_eq_mod n 16

theorem tr_mask {α : Type} {f : String → Except PyErr Rat} {d : Val} (hd : Reachable f d) (v : UInt32) (env : Path → Option Val)
    (o : Nat) (r : Bytes) (k : Int → Prog α) :
    trace env (maskFlags (Val.look minorPath d) (v.toNat : Int) >>= k) o r = trace env (k (flagsShown (minorOf d) v.toNat)) o r := by
  unfold minorOf
  rcases reachable_minor hd with h | ⟨q, h⟩
  · rw [h]; rfl
  · rw [h]
    simp only [maskFlags, flagsShown, Int.toNat_natCast, and_ffff]
    rw [tr_pure_bind]
    split <;> rfl

theorem equip_list (n : Nat) : equipmentList (n : Int) = namesShown n := by
  have key : ∀ i : Nat, ((n : Int).toNat &&& ((2 ^ i : Nat) : Int).toNat == ((2 ^ i : Nat) : Int).toNat) = n.testBit i := by
    intro i
    rw [Int.toNat_natCast, Int.toNat_natCast]
    have h := and_two_pow_zero n i
    cases hb : n.testBit i with
    | false =>
      rw [h.2 hb]
      have : 0 < 2 ^ i := Nat.two_pow_pos i
      simp; omega
    | true =>
      have : n &&& 2 ^ i = 2 ^ i := by
        apply Nat.eq_of_testBit_eq
        intro j
        rw [Nat.testBit_and, Nat.testBit_two_pow]
        by_cases hj : i = j
        · subst hj; simp [hb]
        · simp [hj]
      simp [this]
  unfold equipmentList namesShown
  rw [show enEquipmentFlag = equipmentNames.zipIdx.map (fun p => (p.1, ((2 ^ p.2 : Nat) : Int))) from by decide]
  rw [List.filter_map, List.map_map]
  have : ((fun m : String × Int => (n : Int).toNat &&& m.2.toNat == m.2.toNat) ∘ fun p : String × Nat => (p.1, ((2 ^ p.2 : Nat) : Int)))
      = fun p => n.testBit p.2 := by
    funext p; exact key p.2
  rw [this]
  rfl

/-! ## C69: model names -/

/-- C69: for every pair of controller and hardware type there is a name: the table's if the pair is listed,
otherwise the text with the two numbers. -/
theorem C69_model_name (c h : Int) : modelFromType c h = modelName c h := by
  have t1 : ∀ row ∈ models, modelFromType row.1.1 row.1.2 = row.2 := by decide
  have t2 : ∀ p ∈ controllerHardwareMap, ∀ q ∈ p.2, ((p.1, q.1), q.2) ∈ models := by decide
  unfold modelName
  cases hf : models.find? (fun row => row.1 == (c, h)) with
  | some row =>
    have h1 := List.find?_some hf
    have h2 := List.mem_of_find?_eq_some hf
    have := t1 row h2
    simp only [beq_iff_eq] at h1
    rw [h1] at this
    exact this
  | none =>
    rw [List.find?_eq_none] at hf
    unfold modelFromType
    cases h1 : aget c controllerHardwareMap with
    | none => rfl
    | some m =>
      cases h2 : aget h m with
      | none => simp only [h2]
      | some s =>
        have := t2 _ (mem_of_aget h1) _ (mem_of_aget h2)
        exact absurd (by simp) (hf _ this)

/-- C69 on a listed and an unlisted pair. -/
example : modelName 13 2 = "EasyTouch2 4" ∧ modelName 13 4 = "Unknown Model C:13 H:4" := by decide

/-- Paths the head of the configuration sets that the later parts do not. -/
def headReadings (m : Config) (minor : Option Rat) : List (Path × Val) :=
  m.readings.take 10 ++ m.equipmentReadings minor ++
    [m.modelReading]

theorem loop_succ {σ : Type} (body : Nat → σ → Prog σ) (n i : Nat) (s : σ) :
    loop body (n + 1) i s = (body i s >>= fun s => loop body n (i + 1) s) := rfl
theorem loop_zero {σ : Type} (body : Nat → σ → Prog σ) (i : Nat) (s : σ) : loop body 0 i s = pure s := rfl

theorem trace_configHead {f : String → Except PyErr Rat} {d : Val} (hd : Reachable f d) (m : Config) :
    ∃ ws, (∀ r, trace (fun g => Val.look g d) decodeConfigHead 0
      (u32 m.controllerId.toNat ++ ([m.minPool] ++ ([m.maxPool] ++ ([m.minSpa] ++ ([m.maxSpa] ++ ([m.isCelsius] ++
        ([m.controllerType] ++ ([m.hardwareType] ++ ([m.controllerData] ++ (u32 m.equipment.toNat ++ (m.genericName.enc ++ r)))))))))))
        = (.ok ((), 16 + m.genericName.enc.length, r), ws)) ∧
      ∀ e ∈ headReadings m (minorOf d), hit e.1 ws.reverse = some e.2 := by
  simp only [decodeConfigHead, forRange, loop_succ, loop_zero, decodeSetpoints, prog_assoc, tr_setdefault, tr_I, tr_B, tr_str,
    tr_store, tr_store', tr_lookup, tr_mask hd, tr_pure_bind, logged_ok, equip_list, C69_model_name]
  refine ⟨_, fun r => rfl, ?_⟩
  simp only [headReadings, Config.readings, Config.equipmentReadings, Config.modelReading, List.take, List.forall_mem_cons, List.cons_append, List.nil_append]
  repeat (first | exact List.forall_mem_nil _ | refine ⟨rfl, ?_⟩)


/-- What one circuit leaves in the log. -/
def CCircuitGood (c : ConfigCircuit) (ws : List W) : Prop :=
  (∀ w ∈ ws, w.under [.s "circuit", .i c.id.toInt]) ∧ (∀ e ∈ c.readings, hit e.1 ws.reverse = some e.2)

theorem unknown_key {o : Nat} {s : String} (h : s.toList.take 18 ≠ "unknown_at_offset_".toList) :
    (Key.s (unknownAt o) == Key.s s) = false := by
  have := beq_unknownAt o s h
  simpa using unknownAt_ne o s h

theorem unknown_key' {o : Nat} {s : String} (h : s.toList.take 18 ≠ "unknown_at_offset_".toList) :
    (Key.s s == Key.s (unknownAt o)) = false := by
  have := unknownAt_ne o s h
  simpa using fun e => this e.symm

theorem trace_configCircuit (env : Path → Option Val) (i : Nat) (c : ConfigCircuit) (s : Unit) (o : Nat) :
    ∃ ws, (∀ r, trace env (decodeConfigCircuit i) o (c.enc ++ r) = (.ok (s, o + c.enc.length, r), ws)) ∧ CCircuitGood c ws := by
  simp only [decodeConfigCircuit, ConfigCircuit.enc, List.flatten_cons, List.flatten_nil, List.append_nil, List.append_assoc,
    tr_setdefault, tr_i, tr_H, tr_B, tr_str, tr_offset, tr_store, tr_store', logged_ok]
  have hlen : o + 4 + c.name.enc.length + 1 + 1 + 1 + 1 + 1 + 1 + 1 + 1 + 2 + 1 + 1 = o + (s32 c.id.toInt ++ (c.name.enc ++
      ([c.nameIndex] ++ ([c.function] ++ ([c.interface] ++ ([c.flags] ++ ([c.colorSet] ++ ([c.colorPosition] ++
      ([c.colorStagger] ++ ([c.deviceId] ++ (u16 c.runtime.toNat ++ ([c.unkA] ++ [c.unkB])))))))))))).length := by
    simp only [List.length_append, List.length_cons, List.length_nil, length_u16, length_s32]
    omega
  refine ⟨_, fun r => congrArg (fun n => ((Except.ok (s, n, r), _) : TRes Unit)) hlen, ?_, ?_⟩
  · simp only [List.forall_mem_cons, W.under, W.path]
    simp [List.cons_prefix_cons]
  · simp only [ConfigCircuit.readings, List.forall_mem_cons]
    have u1 := fun o => unknownAt_ne o "name_index" (by decide)
    have u2 := fun o => unknownAt_ne o "flags" (by decide)
    have u3 := fun o => unknownAt_ne o "default_runtime" (by decide)
    have v1 := fun o => (u1 o).symm
    have v2 := fun o => (u2 o).symm
    have v3 := fun o => (u3 o).symm
    simp [hit, W.avoids, cir, List.isPrefixOf, Val.look, colorDict, aget, Val.isEmptyDict, u1, u2, u3, v1, v2, v3]

theorem trace_color (env : Path → Option Val) (i : Nat) (c : Color) (s : List Val) (o : Nat) :
    ∃ ws, (∀ r, trace env (decodeColor i s) o (c.enc ++ r) = (.ok (s ++ [c.shown], o + c.enc.length, r), ws)) ∧ ws = [] := by
  simp only [decodeColor, Color.enc, List.flatten_cons, List.flatten_nil, List.append_nil, List.append_assoc, tr_I, tr_str, tr_pure]
  have hlen : o + c.name.enc.length + 4 + 4 + 4 = o + (c.name.enc ++ (u32 c.r.toNat ++ (u32 c.g.toNat ++ u32 c.b.toNat))).length := by
    simp only [List.length_append, length_u32]; omega
  exact ⟨_, fun r => congrArg (fun n => ((Except.ok (s ++ [c.shown], n, r), _) : TRes (List Val))) hlen, rfl⟩

/-- What the data byte of a pump leaves in the log. -/
def PumpDataGood (i : Nat) (b : UInt8) (ws : List W) : Prop :=
  (∀ w ∈ ws, w.under [.s "pump", .i i]) ∧ hit (pumpPath i [.s "data"]) ws.reverse = some (.int b.toNat)

theorem trace_pumpData (env : Path → Option Val) (i : Nat) (b : UInt8) (s : Unit) (o : Nat) :
    ∃ ws, (∀ r, trace env (decodePumpData i) o ([b] ++ r) = (.ok (s, o + [b].length, r), ws)) ∧ PumpDataGood i b ws := by
  simp only [decodePumpData, tr_setdefault, tr_B, tr_store, tr_store', logged_ok]
  refine ⟨_, fun r => rfl, ?_, ?_⟩
  · simp only [List.forall_mem_cons, W.under, W.path]
    simp [List.cons_prefix_cons]
  · simp [hit, W.avoids, pumpPath, List.isPrefixOf, Val.look, Val.isEmptyDict]

theorem foldl_colors (cs : List Color) : ∀ s : List Val, cs.foldl (fun s c => s ++ [c.shown]) s = s ++ cs.map Color.shown := by
  induction cs with
  | nil => simp
  | cons c cs ih => intro s; simp [ih]

theorem flatMap_single (l : List UInt8) : l.flatMap (fun b => [b]) = l := by
  induction l with
  | nil => rfl
  | cons a l ih => simp [List.flatMap_cons, ih]

theorem config_readings_controller (m : Config) (u : Option Rat) :
    ∀ e ∈ headReadings m u, ∃ k, e.1 = .s "controller" :: k := by
  simp only [headReadings, Config.readings, Config.equipmentReadings, Config.modelReading, List.take, List.forall_mem_cons,
    List.cons_append, List.nil_append]
  refine ⟨⟨_, rfl⟩, ⟨_, rfl⟩, ⟨_, rfl⟩, ⟨_, rfl⟩, ⟨_, rfl⟩, ⟨_, rfl⟩, ⟨_, rfl⟩, ⟨_, rfl⟩, ⟨_, rfl⟩, ⟨_, rfl⟩, ⟨_, rfl⟩,
    ⟨_, rfl⟩, ⟨_, rfl⟩, List.forall_mem_nil _⟩

/-- The stores after the head, circuits and pumps aside. -/
theorem config_tail_avoids (m : Config) (u : Option Rat) :
    ∀ e ∈ headReadings m u, ∀ w ∈ [W.set (ctlConfig "circuit_count") (.int m.circuits.length), .dflt [.s "circuit"] (.dict []),
      .set (ctlConfig "color_count") (.int m.colors.length), .set (ctlConfig "color") (.list (m.colors.map Color.shown)),
      .dflt [.s "pump"] (.dict []), .set (ctlConfig "interface_tab_flags") (.int m.tabFlags.toNat),
      .set (ctlConfig "show_alarms") (.int m.showAlarms.toNat)], w.avoids e.1 = true := by
  simp only [headReadings, Config.readings, Config.equipmentReadings, Config.modelReading, List.take, List.forall_mem_cons,
    List.cons_append, List.nil_append]
  repeat (first | exact List.forall_mem_nil _ | refine ⟨⟨rfl, rfl, rfl, rfl, rfl, rfl, rfl, List.forall_mem_nil _⟩, ?_⟩)

/-- Everything a configuration message leaves in the log. -/
theorem trace_config {f : String → Except PyErr Rat} {d : Val} (hd : Reachable f d) (m : Config) (t : Bytes) :
    ∃ o ws, trace (fun g => Val.look g d) decodeConfig 0 (m.enc ++ t) = (.ok ((), o, t), ws) ∧ o = m.enc.length ∧
      (∀ e ∈ headReadings m (minorOf d) ++ m.readings.drop 10, ∀ d', Val.look e.1 (replay ws d') = some e.2) ∧
      (∀ cs1 c cs2, m.circuits = cs1 ++ c :: cs2 → (∀ c' ∈ cs2, c'.id ≠ c.id) → ∃ a cw z, ws = a ++ (cw ++ z) ∧ CCircuitGood c cw ∧
        ∀ w ∈ z, ∀ k, w.avoids (.s "circuit" :: .i c.id.toInt :: k) = true) ∧
      (∀ (i : Nat) (b : UInt8), m.pumps[i]? = some b → ∃ a bw c, ws = a ++ (bw ++ c) ∧ PumpDataGood i b bw ∧
        ∀ w ∈ c, ∀ k, w.avoids (.s "pump" :: .i i :: k) = true) := by
  obtain ⟨A, hA, hA2⟩ := trace_configHead hd m
  obtain ⟨C, hC, hC1, hC2⟩ := trace_rounds (env := fun g => Val.look g d) (enc := ConfigCircuit.enc) (next := fun _ _ => ())
    (body := fun i _ => decodeConfigCircuit i) (Good := fun _ => CCircuitGood) m.circuits
    (fun i c _ s o => trace_configCircuit _ i c s o) 0 () (16 + m.genericName.enc.length + 4)
  obtain ⟨L, hL, hL1, hL2⟩ := trace_rounds (env := fun g => Val.look g d) (enc := Color.enc) (next := fun c s => s ++ [c.shown])
    (body := decodeColor) (Good := fun _ _ ws => ws = []) m.colors
    (fun i c _ s o => trace_color _ i c s o) 0 [] (16 + m.genericName.enc.length + 4 + (m.circuits.flatMap ConfigCircuit.enc).length + 4)
  obtain ⟨P, hP, hP1, hP2⟩ := trace_rounds (env := fun g => Val.look g d) (enc := fun b => [b]) (next := fun _ _ => ())
    (body := fun i _ => decodePumpData i) (Good := PumpDataGood) m.pumps
    (fun i b _ s o => trace_pumpData _ i b s o) 0 ()
    (16 + m.genericName.enc.length + 4 + (m.circuits.flatMap ConfigCircuit.enc).length + 4 + (m.colors.flatMap Color.enc).length)
  have hL0 : L.flatten = [] := by
    rw [List.flatten_eq_nil_iff]
    intro l hl
    obtain ⟨j, hj⟩ := List.mem_iff_getElem?.1 hl
    obtain ⟨hj', -⟩ := List.getElem?_eq_some_iff.1 hj
    obtain ⟨ws, h1, h2⟩ := hL2 j _ (List.getElem?_eq_getElem (by omega))
    rw [hj, Option.some.injEq] at h1
    rw [h1, h2]
  rw [flatMap_single] at hP
  have hp8 := m.eightPumps
  have hCc : ∀ w ∈ C.flatten, w.under [.s "circuit"] := by
    intro w hw
    obtain ⟨j, a, ws, h1, h2, h3, h4⟩ := rounds_mem (Good := fun _ => CCircuitGood) (i := 0) hC1 hC2 hw
    exact under_mono (by simp) (h3.1 w h4)
  have hPp : ∀ w ∈ P.flatten, w.under [.s "pump"] := by
    intro w hw
    obtain ⟨j, a, ws, h1, h2, h3, h4⟩ := rounds_mem hP1 hP2 hw
    exact under_mono (by simp) (h3.1 w h4)
  refine ⟨16 + m.genericName.enc.length + 4 + (m.circuits.flatMap ConfigCircuit.enc).length + 4 +
      (m.colors.flatMap Color.enc).length + 8 + 4 + 4,
    A ++ (W.set (ctlConfig "circuit_count") (.int m.circuits.length) :: W.dflt [.s "circuit"] (.dict []) :: (C.flatten ++
      (W.set (ctlConfig "color_count") (.int m.colors.length) :: W.set (ctlConfig "color") (.list (m.colors.map Color.shown)) ::
        W.dflt [.s "pump"] (.dict []) :: (P.flatten ++ [W.set (ctlConfig "interface_tab_flags") (.int m.tabFlags.toNat),
          W.set (ctlConfig "show_alarms") (.int m.showAlarms.toNat)])))), ?_, ?_, ?_, ?_, ?_⟩
  · simp only [decodeConfig, Config.enc, List.flatten_cons, List.flatten_nil, List.append_nil, List.append_assoc, forRange]
    rw [tr_seq, hA, andThen_ok, tr_In _ _ _ m.circuitsFit, tr_store, tr_setdefault]
    simp only [Int.toNat_natCast]
    rw [tr_seq, hC, andThen_ok, tr_In _ _ _ m.colorsFit, tr_store]
    simp only [Int.toNat_natCast]
    rw [tr_seq, hL, andThen_ok, hL0, foldl_colors, tr_store, tr_setdefault, tr_seq]
    rw [hp8] at hP
    rw [hP, andThen_ok, tr_I, tr_store, tr_I, tr_store']
    simp only [hp8, List.nil_append]
    rfl
  · simp only [Config.enc, List.flatten_cons, List.flatten_nil, List.append_nil, List.length_append, List.length_cons,
      List.length_nil, length_u32]
    omega
  · intro e he d'
    rw [List.mem_append] at he
    rcases he with he | he
    · obtain ⟨k, hk⟩ := config_readings_controller m _ e he
      have hav := config_tail_avoids m _ e he
      simp only [List.forall_mem_cons] at hav
      refine look_of_hit_mid (a := []) (hA2 e he) ?_ d'
      intro w hw
      simp only [List.mem_cons, List.mem_append, List.not_mem_nil, or_false] at hw
      obtain ⟨a1, a2, a3, a4, a5, a6, a7, -⟩ := hav
      rcases hw with rfl | rfl | hw | rfl | rfl | rfl | hw | rfl | rfl
      · exact a1
      · exact a2
      · rw [hk]; exact avoids_of_diverge (pre := []) (a := .s "circuit") (by decide) (hCc w hw)
      · exact a3
      · exact a4
      · exact a5
      · rw [hk]; exact avoids_of_diverge (pre := []) (a := .s "pump") (by decide) (hPp w hw)
      · exact a6
      · exact a7
    · have hC' : ∀ k, ∀ w ∈ C.flatten.reverse, w.avoids (.s "controller" :: k) = true := fun k w hw =>
        avoids_of_diverge (pre := []) (a := .s "circuit") (by decide) (hCc w (List.mem_reverse.1 hw))
      have hP' : ∀ k, ∀ w ∈ P.flatten.reverse, w.avoids (.s "controller" :: k) = true := fun k w hw =>
        avoids_of_diverge (pre := []) (a := .s "pump") (by decide) (hPp w (List.mem_reverse.1 hw))
      have hskipC : ∀ k l, hit (.s "controller" :: k) (C.flatten.reverse ++ l) = hit (.s "controller" :: k) l :=
        fun k l => hit_skip (hC' k)
      have hskipP : ∀ k l, hit (.s "controller" :: k) (P.flatten.reverse ++ l) = hit (.s "controller" :: k) l :=
        fun k l => hit_skip (hP' k)
      refine look_of_hit' ?_ d'
      revert e
      simp only [Config.readings, List.drop, List.forall_mem_cons, List.reverse_append, List.reverse_cons, List.reverse_nil,
        List.nil_append, List.cons_append, List.append_assoc]
      simp [hit, hskipC, hskipP, cc, ctlConfig, List.isPrefixOf, W.avoids, Val.isEmptyDict, Val.look]
  · intro cs1 c cs2 hcs hlast
    have hc : m.circuits[cs1.length]? = some c := by rw [hcs]; simp
    obtain ⟨cw, h1, h2⟩ := hC2 _ c hc
    refine ⟨A ++ (W.set (ctlConfig "circuit_count") (.int m.circuits.length) :: W.dflt [.s "circuit"] (.dict []) ::
        (C.take cs1.length).flatten), cw, (C.drop (cs1.length + 1)).flatten ++
      (W.set (ctlConfig "color_count") (.int m.colors.length) :: W.set (ctlConfig "color") (.list (m.colors.map Color.shown)) ::
        W.dflt [.s "pump"] (.dict []) :: (P.flatten ++ [W.set (ctlConfig "interface_tab_flags") (.int m.tabFlags.toNat),
          W.set (ctlConfig "show_alarms") (.int m.showAlarms.toNat)])), ?_, h2, ?_⟩
    · rw [rounds_split h1]; simp
    · intro w hw k
      simp only [List.mem_append, List.mem_cons, List.not_mem_nil, or_false] at hw
      rcases hw with hw | rfl | rfl | rfl | hw | rfl | rfl
      · obtain ⟨j, a, ws, h3, h4, h5, h6⟩ := rounds_mem_drop (Good := fun _ => CCircuitGood) (i := 0) hC1 hC2 hw
        have ha : a ∈ cs2 := by
          rw [hcs, List.getElem?_append_right (by omega)] at h4
          obtain ⟨n, hn⟩ : ∃ n, j - cs1.length = n + 1 := ⟨j - cs1.length - 1, by omega⟩
          rw [hn, List.getElem?_cons_succ] at h4
          exact List.mem_of_getElem? h4
        refine avoids_of_diverge (pre := [.s "circuit"]) (a := .i a.id.toInt) ?_ (h5.1 w h6)
        simp only [ne_eq, Key.i.injEq]
        intro h
        exact hlast a ha (Int32.toInt_inj.1 h)
      · rfl
      · rfl
      · rfl
      · exact avoids_of_diverge (pre := []) (a := .s "pump") (by decide) (hPp w hw)
      · rfl
      · rfl
  · intro i b hb
    obtain ⟨bw, h1, h2⟩ := hP2 i b hb
    rw [Nat.zero_add] at h2
    refine ⟨A ++ (W.set (ctlConfig "circuit_count") (.int m.circuits.length) :: W.dflt [.s "circuit"] (.dict []) :: (C.flatten ++
      (W.set (ctlConfig "color_count") (.int m.colors.length) :: W.set (ctlConfig "color") (.list (m.colors.map Color.shown)) ::
        W.dflt [.s "pump"] (.dict []) :: (P.take i).flatten))), bw,
      (P.drop (i + 1)).flatten ++ [W.set (ctlConfig "interface_tab_flags") (.int m.tabFlags.toNat),
          W.set (ctlConfig "show_alarms") (.int m.showAlarms.toNat)], ?_, h2, ?_⟩
    · rw [rounds_split h1]; simp
    · intro w hw k
      simp only [List.mem_append, List.mem_cons, List.not_mem_nil, or_false] at hw
      rcases hw with hw | rfl | rfl
      · obtain ⟨j, a, ws, h3, h4, h5, h6⟩ := rounds_mem_drop hP1 hP2 hw
        refine avoids_of_diverge (pre := [.s "pump"]) (a := .i ((0 + j : Nat) : Int)) ?_ (h5.1 w h6)
        simp only [ne_eq, Key.i.injEq]; omega
      · rfl
      · rfl

theorem ccircuit_readings_path (c : ConfigCircuit) :
    ∀ e ∈ c.readings, ∃ k, e.1 = .s "circuit" :: .i c.id.toInt :: k := by
  simp only [ConfigCircuit.readings, List.forall_mem_cons]
  refine ⟨⟨_, rfl⟩, ⟨_, rfl⟩, ⟨_, rfl⟩, ⟨_, rfl⟩, ⟨_, rfl⟩, ⟨_, rfl⟩, ⟨_, rfl⟩, ⟨_, rfl⟩, ⟨_, rfl⟩, ⟨_, rfl⟩, ⟨_, rfl⟩,
    List.forall_mem_nil _⟩

/-- C52: decoding a configuration message, with any number of circuits and colours and any names, makes every
setting available under its documented path, whatever data the gateway holds; of several circuits with the same
id the last one counts. -/
theorem C52_config (f : String → Except PyErr Rat) (m : Config) (t : Bytes) (d : Val) (hd : Reachable f d) :
    let r := decodeWith decodeConfig (m.enc ++ t) d
    r.1 = .ok () ∧
    (∀ e ∈ m.readings, Val.look e.1 r.2 = some e.2) ∧
    (Val.look m.modelReading.1 r.2 = some m.modelReading.2) ∧
    (∀ cs1 c cs2, m.circuits = cs1 ++ c :: cs2 → (∀ c' ∈ cs2, c'.id ≠ c.id) →
      ∀ e ∈ c.readings, Val.look e.1 r.2 = some e.2) ∧
    (∀ (i : Nat) (b : UInt8), m.pumps[i]? = some b → Val.look (pumpPath i [.s "data"]) r.2 = some (.int b.toNat)) := by
  obtain ⟨o, ws, ht, ho, h1, h2, h3⟩ := trace_config hd m t
  have hr : decodeWith decodeConfig (m.enc ++ t) d = (.ok (), replay ws d) :=
    decode_ok f .config rfl _ (reachable_sound hd) ht
  intro r
  have hr' : r = (.ok (), replay ws d) := hr
  rw [hr']
  refine ⟨rfl, fun e he => h1 e ?_ d, h1 _ (by simp [headReadings]) d, ?_, ?_⟩
  · rw [← List.take_append_drop 10 m.readings, List.mem_append] at he
    simp only [headReadings, List.mem_append]
    rcases he with he | he
    · exact .inl (.inl (.inl he))
    · exact .inr he
  · intro cs1 c cs2 hcs hlast e he
    obtain ⟨a, cw, z, rfl, hg, hz⟩ := h2 cs1 c cs2 hcs hlast
    obtain ⟨k, hk⟩ := ccircuit_readings_path c e he
    exact look_of_hit_mid (hg.2 e he) (fun w hw => by rw [hk]; exact hz w hw k) d
  · intro i b hb
    obtain ⟨a, bw, c, rfl, hg, hc⟩ := h3 i b hb
    exact look_of_hit_mid hg.2 (fun w hw => hc w hw _) d

/-- C61: the equipment flags shown are the message's, restricted to the low 16 bits exactly when the adapter's
version is known and its minor number is at most 736; the list names exactly the known flags that are set. -/
theorem C61_equipment (f : String → Except PyErr Rat) (m : Config) (t : Bytes) (d : Val) (hd : Reachable f d) :
    ∀ e ∈ m.equipmentReadings (minorOf d), Val.look e.1 (decodeWith decodeConfig (m.enc ++ t) d).2 = some e.2 := by
  obtain ⟨o, ws, ht, ho, h1, h2, h3⟩ := trace_config hd m t
  have hr : decodeWith decodeConfig (m.enc ++ t) d = (.ok (), replay ws d) :=
    decode_ok f .config rfl _ (reachable_sound hd) ht
  rw [hr]
  intro e he
  refine h1 e ?_ d
  simp only [headReadings, List.mem_append]
  exact .inl (.inl (.inr he))

/-- C60 for configuration messages as well. -/
theorem C60_config (f : String → Except PyErr Rat) (m : Config) (d : Val) (hd : Reachable f d) (n : Nat)
    (hn : n < m.enc.length) : (decodeWith decodeConfig (m.enc.take n) d).1 = .error .structError := by
  obtain ⟨o, ws, ht, ho, -⟩ := trace_config hd m []
  rw [List.append_nil] at ht
  exact truncated f .config rfl rfl m.enc d (reachable_sound hd) ht n (by omega)

/-- C60 for status messages as well. -/
theorem C60_status (f : String → Except PyErr Rat) (m : Status) (d : Val) (hd : Reachable f d) (hl : LimitsOk d) (n : Nat)
    (hn : n < m.enc.length) : (decodeWith decodeStatus (m.enc.take n) d).1 = .error .structError := by
  obtain ⟨o, ws, ht, ho, -⟩ := trace_status (reachable_sound hd) hl m []
  rw [List.append_nil] at ht
  exact truncated f .status rfl rfl m.enc d (reachable_sound hd) ht n (by omega)

end SL
