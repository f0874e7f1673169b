import Verif.Props.ConfigProps
/-!
# C55: pump status
-/
set_option linter.unusedSimpArgs false
namespace SL
open Spec
open Prog (rd rdString rdArray rdTime rdMsgString offset store setdefault lookup throw loop forRange)

/-- One round of the search for a name. -/
def nextName (cs : List (Int × String)) (p : Preset) (name : String) : String :=
  if name = "Default" then (circuitNamed cs p.circuit.toNat).getD "Default" else name

theorem fold_label (cs : List (Int × String)) : ∀ (ps : List Preset) (s : String),
    ps.foldl (fun s p => nextName cs p s) s =
      if s = "Default" then ((ps.filterMap (fun p => circuitNamed cs p.circuit.toNat)).find? (· ≠ "Default")).getD "Default"
      else s
  | [], s => by simp only [List.foldl_nil, List.filterMap_nil, List.find?_nil, Option.getD_none]; split <;> simp_all
  | p :: ps, s => by
    rw [List.foldl_cons, fold_label cs ps]
    unfold nextName
    by_cases hs : s = "Default"
    · simp only [hs, if_true, List.filterMap_cons]
      cases h : circuitNamed cs p.circuit.toNat with
      | none => simp
      | some n =>
        by_cases hn : n = "Default"
        · simp [hn]
        · simp [hn]
    · simp [hs]

theorem tr_nameFromCircuits (env : Path → Option Val) (dev : Int) :
    ∀ (kv : List (Key × Val)) (cs : List (Int × String)) (name : String) (o : Nat) (r : Bytes),
    kv.map (fun e => (Val.look [.s "device_id"] e.2, Val.look [.s "name"] e.2)) = cs.map (fun c => (some (.int c.1), some (.str c.2))) →
    trace env (nameFromCircuits dev kv name) o r =
      (.ok (if name = "Default" then (circuitNamed cs dev).getD "Default" else name, o, r), [])
  | [], cs, name, o, r, h => by
    have : cs = [] := by cases cs with
      | nil => rfl
      | cons a b => simp at h
    subst this
    simp only [nameFromCircuits, circuitNamed, tr_pure, List.find?_nil, Option.map_none, Option.getD_none]
    split <;> simp_all
  | (k, v) :: kv, cs, name, o, r, h => by
    cases cs with
    | nil => simp at h
    | cons c cs =>
      simp only [List.map_cons, List.cons.injEq, Prod.mk.injEq] at h
      obtain ⟨⟨h1, h2⟩, h3⟩ := h
      have ih := tr_nameFromCircuits env dev kv cs name o r h3
      cases v with
      | dict e =>
        rw [look_cons_dict] at h1 h2
        cases h4 : aget (.s "device_id") e with
        | none => rw [h4] at h1; simp at h1
        | some x =>
          cases h5 : aget (.s "name") e with
          | none => rw [h5] at h2; simp at h2
          | some y =>
            rw [h4] at h1; rw [h5] at h2
            simp only [Option.bind, Val.look, Option.some.injEq] at h1 h2
            subst h1 h2
            simp only [nameFromCircuits, subscript, h4, tr_pure_bind, Val.int.injEq]
            by_cases hc : c.1 = dev ∧ name = "Default"
            · rw [if_pos hc]
              simp only [h5, tr_pure_bind, tr_pure, hc.2, if_true, circuitNamed, List.find?_cons, hc.1, beq_self_eq_true]
              rfl
            · rw [if_neg hc, ih]
              by_cases hn : name = "Default"
              · have : (c.1 == dev) = false := by simp; intro h; exact hc ⟨h, hn⟩
                simp only [hn, if_true, circuitNamed, List.find?_cons, this]
              · simp only [hn, if_false]
      | _ => simp [Val.look] at h1

theorem tr_pumpName {α : Type} {d : Val} {cs : List (Int × String)} (hc : KnownCircuits d cs) (env : Path → Option Val) (p : Preset) (name : String)
    (k : String → Prog α) (o : Nat) (r : Bytes) :
    trace env (pumpName (p.circuit.toNat : Int) (Val.look [.s "circuit"] d) name >>= k) o r = trace env (k (nextName cs p name)) o r := by
  rw [tr_seq]
  have : trace env (pumpName (p.circuit.toNat : Int) (Val.look [.s "circuit"] d) name) o r = (.ok (nextName cs p name, o, r), []) := by
    rcases hc with ⟨h, rfl⟩ | ⟨kv, h, h2⟩
    · rw [h]
      simp only [pumpName, tr_pure, nextName, circuitNamed, List.find?_nil, Option.map_none, Option.getD_none]
      split <;> simp_all
    · rw [h]
      exact tr_nameFromCircuits env _ kv cs name o r h2
  rw [this]
  rfl

/-- What one preset leaves in the log. -/
def PresetGood (pump : Int) (i : Nat) (p : Preset) (ws : List W) : Prop :=
  (∀ w ∈ ws, w.under [.s "pump", .i pump, .s "preset", .i i]) ∧ (∀ e ∈ p.readings pump i, hit e.1 ws.reverse = some e.2)

theorem trace_preset {d : Val} {cs : List (Int × String)} (hc : KnownCircuits d cs) (pump : Int) (i : Nat) (p : Preset) (s : String) (o : Nat) :
    ∃ ws, (∀ r, trace (fun g => Val.look g d) (decodePreset pump i s) o (p.enc ++ r) =
      (.ok (nextName cs p s, o + p.enc.length, r), ws)) ∧ PresetGood pump i p ws := by
  simp only [decodePreset, Preset.enc, List.flatten_cons, List.flatten_nil, List.append_nil, List.append_assoc,
    tr_setdefault, tr_I, tr_store, tr_lookup, tr_pumpName hc, tr_pure, logged_ok]
  refine ⟨_, fun r => rfl, ?_, ?_⟩
  · simp only [List.forall_mem_cons, W.under, W.path]
    simp [List.cons_prefix_cons]
  · simp only [Preset.readings, List.forall_mem_cons]
    simp [hit, W.avoids, pumpPath, List.isPrefixOf, Val.look, aget, Val.isEmptyDict]

/-- The log before the presets. -/
def pumpHead (m : Pump) (pump : Int) : List W :=
  [.dflt [.s "pump"] (.dict []), .dflt [.s "pump", .i pump] (.dict []), .set [.s "pump", .i pump, .s "type"] (.int m.type.toNat),
   .dflt [.s "pump", .i pump, .s "state"] (.dict [(.s "name", .str ""), (.s "value", .int 0)])] ++
  ((if m.state.toNat.testBit 31 then [] else [.set [.s "pump", .i pump, .s "state", .s "value"] (.int m.state.toNat)]) ++
  [.set [.s "pump", .i pump, .s "watts_now"] (.dict []), .set [.s "pump", .i pump, .s "rpm_now"] (.dict []),
   .set [.s "pump", .i pump, .s (unknownAt 16)] (.int m.unk16.toNat), .set [.s "pump", .i pump, .s "gpm_now"] (.dict []),
   .set [.s "pump", .i pump, .s (unknownAt 24)] (.int m.unk24.toNat), .dflt [.s "pump", .i pump, .s "preset"] (.dict [])])

/-- The log after the presets. -/
def pumpTail (m : Pump) (pump : Int) (name : String) : List W :=
  [.set [.s "pump", .i pump, .s "state", .s "name"] (.str (name ++ " Pump")),
   .set [.s "pump", .i pump, .s "watts_now"]
    (entry (name ++ " Pump" ++ " Watts Now") (.int m.watts.toNat) [aUnit "W", aDev "power", aState "measurement"]),
   .set [.s "pump", .i pump, .s "rpm_now"]
    (entry (name ++ " Pump" ++ " RPM Now") (.int m.rpm.toNat) [aUnit "rpm", aState "measurement"]),
   .set [.s "pump", .i pump, .s "gpm_now"]
    (entry (name ++ " Pump" ++ " GPM Now") (.int m.gpm.toNat) [aUnit "gpm", aState "measurement"])]

theorem tr_pumpState {α : Type} (env : Path → Option Val) (pump : Int) (v : UInt32) (k : Unit → Prog α) (o : Nat) (r : Bytes) :
    trace env (setPumpState pump (v.toNat : Int) >>= k) o r = ((trace env (k ()) o r).1,
      (if v.toNat.testBit 31 then [] else [.set [.s "pump", .i pump, .s "state", .s "value"] (.int v.toNat)]) ++
      (trace env (k ()) o r).2) := by
  unfold setPumpState
  have h := and_two_pow_zero v.toNat 31
  have e : (2 : Nat) ^ 31 = 0x80000000 := by decide
  rw [e] at h
  rw [Int.toNat_natCast]
  cases hb : v.toNat.testBit 31 with
  | false => rw [if_pos (h.2 hb)]; rfl
  | true =>
    have : ¬ (v.toNat &&& 0x80000000 = 0) := by intro h'; rw [h.1 h'] at hb; simp at hb
    rw [if_neg this]; rfl

theorem trace_pump {d : Val} {cs : List (Int × String)} (hc : KnownCircuits d cs) (m : Pump) (pump : Int) (t : Bytes) :
    ∃ (P : List (List W)), trace (fun g => Val.look g d) (decodePump pump) 0 (m.enc ++ t) =
      (.ok ((), m.enc.length, t), pumpHead m pump ++ (P.flatten ++ pumpTail m pump (stripName (m.label cs)))) ∧
      P.length = m.presets.length ∧
      ∀ (j : Nat) (a : Preset), m.presets[j]? = some a → ∃ ws, P[j]? = some ws ∧ PresetGood pump (0 + j) a ws := by
  obtain ⟨P, hP, hP1, hP2⟩ := trace_rounds (env := fun g => Val.look g d) (enc := Preset.enc) (next := nextName cs)
    (body := decodePreset pump) (Good := PresetGood pump) m.presets
    (fun i b _ s o => trace_preset hc pump i b s o) 0 "Default" 28
  refine ⟨P, ?_, hP1, hP2⟩
  have h8 := m.eight
  simp only [decodePump, Pump.enc, List.flatten_cons, List.flatten_nil, List.append_nil, List.append_assoc]
  rw [h8] at hP
  simp only [tr_setdefault, tr_I, tr_store, tr_offset, tr_pumpState]
  rw [tr_seq, hP, andThen_ok, fold_label]
  simp only [if_true, decodePumpTail, tr_store, tr_store', logged_ok]
  simp only [logged, pumpHead, List.cons_append, List.nil_append, List.append_assoc]
  have : (28 + (m.presets.flatMap Preset.enc).length) = (u32 m.type.toNat ++
              (u32 m.state.toNat ++
                (u32 m.watts.toNat ++
                  (u32 m.rpm.toNat ++
                    (u32 m.unk16.toNat ++
                      (u32 m.gpm.toNat ++ (u32 m.unk24.toNat ++ List.flatMap Preset.enc m.presets))))))).length := by
    simp only [List.length_append, length_u32]; omega
  rw [this]
  rfl

/-! ## Stripping -/

theorem dropWhile_split (p : Char → Bool) (s : List Char) :
    s = s.takeWhile p ++ s.dropWhile p ∧ (∀ c ∈ s.takeWhile p, p c = true) ∧
      ∀ c, (s.dropWhile p).head? = some c → p c = false := by
  refine ⟨(List.takeWhile_append_dropWhile).symm, fun c hc => ?_, fun c hc => ?_⟩
  · exact (List.all_eq_true.1 List.all_takeWhile) c hc
  · exact List.head?_dropWhile_not p s |> fun h => by rw [hc] at h; simpa using h

theorem stripBy_stripped (p : Char → Bool) (s : List Char) : Stripped p s (stripBy p s) := by
  obtain ⟨h1, h2, h3⟩ := dropWhile_split p s
  obtain ⟨g1, g2, g3⟩ := dropWhile_split p (s.dropWhile p).reverse
  have e : s.dropWhile p = ((s.dropWhile p).reverse.dropWhile p).reverse ++ ((s.dropWhile p).reverse.takeWhile p).reverse := by
    rw [← List.reverse_append, ← g1, List.reverse_reverse]
  refine ⟨s.takeWhile p, ((s.dropWhile p).reverse.takeWhile p).reverse, ?_, h2, ?_, ?_, ?_⟩
  · unfold stripBy
    rw [List.append_assoc, ← e]; exact h1
  · intro c hc; exact g2 c (List.mem_reverse.1 hc)
  · intro c hc
    unfold stripBy at hc
    refine h3 c ?_
    rw [e, List.head?_append, hc]; rfl
  · intro c hc
    unfold stripBy at hc
    rw [List.getLast?_reverse] at hc
    exact g3 c hc

/-! ## C55 -/

theorem pump_readings_path (m : Pump) (i : Int) (n : String) :
    ∀ e ∈ m.readings i n, ∃ k, e.1 = .s "pump" :: .i i :: k := by
  simp only [Pump.readings, List.forall_mem_cons]
  exact ⟨⟨_, rfl⟩, ⟨_, rfl⟩, ⟨_, rfl⟩, ⟨_, rfl⟩, ⟨_, rfl⟩, ⟨_, rfl⟩, ⟨_, rfl⟩, ⟨_, rfl⟩, List.forall_mem_nil _⟩

theorem preset_readings_path (p : Preset) (i : Int) (j : Nat) :
    ∀ e ∈ p.readings i j, ∃ k, e.1 = .s "pump" :: .i i :: .s "preset" :: .i j :: k := by
  simp only [Preset.readings, List.forall_mem_cons]
  exact ⟨⟨_, rfl⟩, ⟨_, rfl⟩, ⟨_, rfl⟩, List.forall_mem_nil _⟩

theorem pumpTail_avoids_preset (m : Pump) (i : Int) (n : String) (j : Int) (k : Path) :
    ∀ w ∈ pumpTail m i n, w.avoids (.s "pump" :: .i i :: .s "preset" :: .i j :: k) = true := by
  simp only [pumpTail, List.forall_mem_cons]
  refine ⟨?_, ?_, ?_, ?_, List.forall_mem_nil _⟩ <;> simp [W.avoids, List.isPrefixOf]

/-- `pump/<i>/state/value`. -/
abbrev pumpStateValue (i : Int) : Path := pumpPath i [.s "state", .s "value"]

theorem pump_type_hit (m : Pump) (i : Int) :
    hit (pumpPath i [.s "type"]) (pumpHead m i).reverse = some (.int m.type.toNat) := by
  unfold pumpHead
  split <;>
  simp [hit, W.avoids, pumpPath, List.isPrefixOf, Val.look, aget, Val.isEmptyDict,
    unknownAt_ne 16 "type" (by decide), unknownAt_ne 24 "type" (by decide), (unknownAt_ne 16 "type" (by decide)).symm,
    (unknownAt_ne 24 "type" (by decide)).symm]

theorem pump_unknown_hit (m : Pump) (i : Int) :
    hit (pumpPath i [.s "unknown_at_offset_16"]) (pumpHead m i).reverse = some (.int m.unk16.toNat) ∧
    hit (pumpPath i [.s "unknown_at_offset_24"]) (pumpHead m i).reverse = some (.int m.unk24.toNat) := by
  have h16 : unknownAt 16 = "unknown_at_offset_16" := by decide
  have h24 : unknownAt 24 = "unknown_at_offset_24" := by decide
  unfold pumpHead
  rw [h16, h24]
  constructor <;> split <;> simp [hit, W.avoids, pumpPath, List.isPrefixOf, Val.look, aget, Val.isEmptyDict]

theorem pump_state_head (m : Pump) (i : Int) (d : Val) :
    Val.look (pumpStateValue i) (replay (pumpHead m i) d) =
      if m.state.toNat.testBit 31 then
        (if (Val.look (pumpPath i [.s "state"]) d).isSome then Val.look (pumpStateValue i) d else some (.int 0))
      else some (.int m.state.toNat) := by
  have hpost : ∀ w ∈ ([.set [.s "pump", .i i, .s "watts_now"] (.dict []), .set [.s "pump", .i i, .s "rpm_now"] (.dict []),
   .set [.s "pump", .i i, .s (unknownAt 16)] (.int m.unk16.toNat), .set [.s "pump", .i i, .s "gpm_now"] (.dict []),
   .set [.s "pump", .i i, .s (unknownAt 24)] (.int m.unk24.toNat), .dflt [.s "pump", .i i, .s "preset"] (.dict [])] : List W),
     w.avoids (pumpStateValue i) = true := by
    simp [W.avoids, List.isPrefixOf, pumpPath, pumpStateValue, unknownAt_ne 16 "state" (by decide),
      unknownAt_ne 24 "state" (by decide), (unknownAt_ne 16 "state" (by decide)).symm,
      (unknownAt_ne 24 "state" (by decide)).symm]
  unfold pumpHead
  rw [replay_append, replay_append, look_replay_avoid hpost]
  cases hb : m.state.toNat.testBit 31 with
  | false => simp only [Bool.false_eq_true, if_false, replay, W.app]; exact look_put_same _ _ _
  | true =>
    simp only [if_true, replay, W.app]
    generalize hd' : Val.put [.s "pump", .i i, .s "type"] (.int m.type.toNat)
      (Val.putNew [.s "pump", .i i] (.dict []) (Val.putNew [.s "pump"] (.dict []) d)) = d'
    have hpre : ∀ q, (∀ w ∈ ([.dflt [.s "pump"] (.dict []), .dflt [.s "pump", .i i] (.dict []),
        .set [.s "pump", .i i, .s "type"] (.int m.type.toNat)] : List W), w.avoids q = true) → Val.look q d' = Val.look q d := by
      intro q hq
      have := look_replay_avoid hq d
      simp only [replay, W.app, hd'] at this
      exact this
    have h1 := hpre (pumpPath i [.s "state"]) (by simp [W.avoids, List.isPrefixOf, pumpPath, Val.isEmptyDict])
    have h2 := hpre (pumpStateValue i) (by simp [W.avoids, List.isPrefixOf, pumpPath, pumpStateValue, Val.isEmptyDict])
    cases hs : Val.look (pumpPath i [.s "state"]) d with
    | some x =>
      rw [hs] at h1
      rw [show ([.s "pump", .i i, .s "state"] : Path) = pumpPath i [.s "state"] from rfl, putNew_of_some h1, h2]
      rfl
    | none =>
      rw [hs] at h1
      rw [show ([.s "pump", .i i, .s "state"] : Path) = pumpPath i [.s "state"] from rfl, putNew_of_none h1]
      have := look_put_below (p := pumpPath i [.s "state"]) (r := [.s "value"]) (x := .dict [(.s "name", .str ""), (.s "value", .int 0)]) (d := d')
      rw [show pumpStateValue i = pumpPath i [.s "state"] ++ [.s "value"] from rfl, this]
      rfl

/-- C55: decoding a pump status message makes type, watts, rpm, gpm and the presets available under
`pump/<index>`; the state too, unless its top bit is set, in which case the previous state (0 if there was none)
is kept; the pump is named after the first circuit matching a preset, else "Default", with white space and
commas at the ends removed.  (`cs` are the circuits known, which must all have a device id and a name.) -/
theorem C55_pump (f : String → Except PyErr Rat) (m : Pump) (i : Int) (t : Bytes) (d : Val) (hd : Reachable f d)
    (cs : List (Int × String)) (hc : KnownCircuits d cs) :
    ∃ mid name, Stripped pyIsSpace (m.label cs).toList mid ∧ Stripped (· == ',') mid name.toList ∧
    let r := decodeWith (decodePump i) (m.enc ++ t) d
    r.1 = .ok () ∧
    (∀ e ∈ m.readings i name, Val.look e.1 r.2 = some e.2) ∧
    (∀ (j : Nat) (p : Preset), m.presets[j]? = some p → ∀ e ∈ p.readings i j, Val.look e.1 r.2 = some e.2) ∧
    Val.look (pumpStateValue i) r.2 =
      if m.state.toNat.testBit 31 then
        (if (Val.look (pumpPath i [.s "state"]) d).isSome then Val.look (pumpStateValue i) d else some (.int 0))
      else some (.int m.state.toNat) := by
  obtain ⟨P, ht, hP1, hP2⟩ := trace_pump hc m i t
  have hr : decodeWith (decodePump i) (m.enc ++ t) d =
      (.ok (), replay (pumpHead m i ++ (P.flatten ++ pumpTail m i (stripName (m.label cs)))) d) :=
    decode_ok f (.pump i) rfl _ (reachable_sound hd) ht
  refine ⟨_, stripName (m.label cs), stripBy_stripped _ _, ?_, ?_⟩
  · unfold stripName
    rw [String.toList_ofList]
    exact stripBy_stripped _ _
  intro r
  have hr' : r = _ := hr
  rw [hr']
  have hPp : ∀ w ∈ P.flatten, ∀ s k, s ≠ "preset" → w.avoids (.s "pump" :: .i i :: .s s :: k) = true := by
    intro w hw s k hs
    obtain ⟨j, a, ws, h1, h2, h3, h4⟩ := rounds_mem hP1 hP2 hw
    exact avoids_of_diverge (pre := [.s "pump", .i i]) (a := .s "preset") (by simpa using Ne.symm hs) (under_mono (by simp) (h3.1 w h4))
  refine ⟨rfl, ?_, ?_, ?_⟩
  · rw [← List.append_assoc]
    generalize hname : stripName (m.label cs) = name
    have htail : ∀ e ∈ (m.readings i name).drop 3, ∀ d', Val.look e.1 (replay (pumpHead m i ++ P.flatten ++ pumpTail m i name) d') = some e.2 := by
      intro e he d'
      refine look_of_hit_mid (b := []) (a := pumpHead m i ++ P.flatten) (ws := pumpTail m i name) ?_ (by simp) d' |> fun h => by
        simpa using h
      revert e
      simp only [Pump.readings, List.drop, List.forall_mem_cons]
      simp [pumpTail, hit, pumpPath, List.isPrefixOf, Val.look, entry, aget, aUnit, aDev, aState, String.append_assoc]
    intro e he
    rw [← List.take_append_drop 3 (m.readings i name), List.mem_append] at he
    rcases he with he | he
    · have key : ∀ s v, s ∈ ["type", "unknown_at_offset_16", "unknown_at_offset_24"] → hit (pumpPath i [.s s]) (pumpHead m i).reverse = some v →
          Val.look (pumpPath i [.s s]) (replay (pumpHead m i ++ P.flatten ++ pumpTail m i name) d) = some v := by
        intro s v hs hv
        rw [List.append_assoc]
        refine look_of_hit_mid (a := []) hv ?_ d
        intro w hw
        rw [List.mem_append] at hw
        rcases hw with hw | hw
        · exact hPp w hw _ _ (by rintro rfl; simp at hs)
        · revert w
          simp only [pumpTail, List.forall_mem_cons]
          simp only [List.mem_cons, List.not_mem_nil, or_false] at hs
          rcases hs with rfl | rfl | rfl <;> refine ⟨?_, ?_, ?_, ?_, List.forall_mem_nil _⟩ <;> simp [W.avoids, List.isPrefixOf, pumpPath]
      simp only [Pump.readings, List.take, List.mem_cons, List.not_mem_nil, or_false] at he
      rcases he with rfl | rfl | rfl
      · exact key _ _ (by simp) (pump_type_hit m i)
      · exact key _ _ (by simp) (pump_unknown_hit m i).1
      · exact key _ _ (by simp) (pump_unknown_hit m i).2
    · exact htail e he d
  · intro j p hp e he
    obtain ⟨ws, h1, h2⟩ := hP2 j p hp
    rw [Nat.zero_add] at h2
    obtain ⟨k, hk⟩ := preset_readings_path p i j e he
    rw [rounds_split h1]
    refine look_of_hit_mid (a := pumpHead m i ++ (P.take j).flatten) (b := (P.drop (j+1)).flatten ++ pumpTail m i (stripName (m.label cs))) (h2.2 e he) ?_ d |> fun h => by
        simpa using h
    intro w hw
    rw [hk]
    rw [List.mem_append] at hw
    rcases hw with hw | hw
    · obtain ⟨j', a, ws, h3, h4, h5, h6⟩ := rounds_mem_drop hP1 hP2 hw
      refine avoids_of_diverge (pre := [.s "pump", .i i, .s "preset"]) (a := .i ((0 + j' : Nat) : Int)) ?_ (h5.1 w h6)
      simp only [ne_eq, Key.i.injEq]; omega
    · exact pumpTail_avoids_preset m i _ j k w hw
  · show Val.look _ (replay _ d) = _
    rw [replay_append, replay_append, look_replay_avoid, look_replay_avoid, pump_state_head]
    · intro w hw
      exact hPp w hw _ _ (by decide)
    · simp only [pumpTail, List.forall_mem_cons]
      refine ⟨?_, ?_, ?_, ?_, List.forall_mem_nil _⟩ <;> simp [W.avoids, List.isPrefixOf, pumpPath, pumpStateValue]

/-- C60 for pump messages as well. -/
theorem C60_pump (f : String → Except PyErr Rat) (m : Pump) (i : Int) (d : Val) (hd : Reachable f d)
    (cs : List (Int × String)) (hc : KnownCircuits d cs) (n : Nat)
    (hn : n < m.enc.length) : (decodeWith (decodePump i) (m.enc.take n) d).1 = .error .structError := by
  obtain ⟨P, ht, -⟩ := trace_pump hc m i []
  rw [List.append_nil] at ht
  exact truncated f (.pump i) rfl rfl m.enc d (reachable_sound hd) ht n (by omega)

/-! ### The condition on the circuits -/

/-- A status message naming a circuit before any configuration is known makes a circuit without a device id; from
then on every complete pump message fails (if that circuit comes first). -/
theorem C55_refuted_unconfigured (f : String → Except PyErr Rat) (m : Pump) (i : Int) (t : Bytes) (d : Val) (hd : Reachable f d)
    (k : Key) (e rest : List (Key × Val)) (hc : Val.look [.s "circuit"] d = some (.dict ((k, .dict e) :: rest)))
    (he : aget (.s "device_id") e = none) :
    (decodeWith (decodePump i) (m.enc ++ t) d).1 = .error .keyError := by
  obtain ⟨p, ps, hps⟩ : ∃ p ps, m.presets = p :: ps := by
    have := m.eight
    cases h : m.presets with
    | nil => rw [h] at this; simp at this
    | cons p ps => exact ⟨p, ps, rfl⟩
  have ht : (trace (fun g => Val.look g d) (decodePump i) 0 (m.enc ++ t)).1 = .error .keyError := by
    have hl : loop (decodePreset i) 8 0 "Default" = decodePreset i 0 "Default" >>= fun s => loop (decodePreset i) 7 1 s := rfl
    simp only [decodePump, Pump.enc, hps, Preset.enc, List.flatMap_cons, List.flatten_cons, List.flatten_nil, List.append_nil,
      List.append_assoc, hl, prog_assoc, decodePreset]
    simp only [tr_setdefault, tr_I, tr_store, tr_offset, tr_pumpState, tr_lookup]
    simp only [hc, pumpName, nameFromCircuits, subscript, he]
    rfl
  unfold decodeWith
  have := decode_trace f (.pump i) rfl (m.enc ++ t) (reachable_sound hd)
  simp only [Decoder.prog] at this
  rw [this]
  simp only [TRes.result]
  rw [ht]
  rfl

/-- A status message. -/
def sampleStatus : Status where
  state := 1
  freezeMode := 0
  remotes := 0
  poolDelay := 0
  spaDelay := 0
  cleanerDelay := 0
  unk9 := 0
  unk10 := 0
  unk11 := 0
  airTemp := 70
  bodies := [⟨0, 80, 0, 84, 100, 1⟩, ⟨1, 90, 1, 101, 100, 3⟩]
  atMostTwo := by decide
  circuits := [⟨500, 1, 0, 0, 0, 0⟩, ⟨505, 0, 2, 1, 10, 0⟩]
  countFits := by decide
  ph := 750
  orp := 700
  saturation := -12
  salt := 60
  phTank := 3
  orpTank := 4
  alert := 0

/-- The text "Pool". -/
def sampleText : Text := ⟨"Pool", by decide, by decide, by decide⟩

/-- A configuration message: a circuit "Pool" with device id 6, one colour. -/
def sampleConfig : Config where
  controllerId := 100
  minPool := 40
  maxPool := 104
  minSpa := 40
  maxSpa := 104
  isCelsius := 0
  controllerType := 13
  hardwareType := 0
  controllerData := 0
  equipment := 32796
  genericName := ⟨"Water Features", by decide, by decide, by decide⟩
  circuits := [⟨505, sampleText, 63, 2, 0, 1, 0, 0, 0, 6, 720, 0, 0⟩]
  circuitsFit := by decide
  colors := [⟨⟨"White", by decide, by decide, by decide⟩, 255, 255, 255⟩]
  colorsFit := by decide
  pumps := [70, 0, 0, 0, 0, 0, 0, 0]
  eightPumps := by decide
  tabFlags := 127
  showAlarms := 0

/-- A pump whose second preset belongs to that circuit; its state is a transitional value. -/
def samplePump : Pump where
  type := 2
  state := 0xFFFFFFFF
  watts := 200
  rpm := 2400
  unk16 := 0
  gpm := 40
  unk24 := 255
  presets := [⟨7, 0, 0⟩, ⟨6, 2400, 1⟩, ⟨0, 0, 0⟩, ⟨0, 0, 0⟩, ⟨0, 0, 0⟩, ⟨0, 0, 0⟩, ⟨0, 0, 0⟩, ⟨0, 0, 0⟩]
  eight := by decide

/-- Data after the configuration. -/
def configured : Val := (decodeWith decodeConfig sampleConfig.enc (.dict [])).2

theorem configured_reachable (f : String → Except PyErr Rat) : Reachable f configured := .step .config _ .init

/-- The hypotheses of `C55_pump` are met after a configuration; the pump is then called "Pool Pump". -/
example (f : String → Except PyErr Rat) : Reachable f configured ∧ KnownCircuits configured [(6, "Pool")] ∧
    samplePump.label [(6, "Pool")] = "Pool" := by
  refine ⟨configured_reachable f, .inr ?_, by decide +kernel⟩
  have h : ∃ kv, Val.look [.s "circuit"] configured = some (.dict kv) := by
    obtain ⟨v, hv⟩ := Option.isSome_iff_exists.1 (show (Val.look [.s "circuit"] configured).isSome = true by decide +kernel)
    have := (reachable_sound (configured_reachable (fun _ => .error .valueError))).shaped _ v rfl hv
    cases v with
    | dict kv => exact ⟨kv, hv⟩
    | _ => simp [Val.isDict] at this
  obtain ⟨kv, hkv⟩ := h
  refine ⟨kv, hkv, ?_⟩
  have e : (match Val.look [.s "circuit"] configured with
      | some (.dict kv) => decide (kv.map (fun e => (Val.look [.s "device_id"] e.2, Val.look [.s "name"] e.2)) =
          [((6 : Int), "Pool")].map (fun c => (some (.int c.1), some (.str c.2))))
      | _ => false) = true := by decide +kernel
  rw [hkv] at e
  simpa using e

/-- The hypotheses of `C55_refuted_unconfigured` are met after a first status message. -/
example (f : String → Except PyErr Rat) : ∃ d k e rest, Reachable f d ∧
    Val.look [.s "circuit"] d = some (.dict ((k, .dict e) :: rest)) ∧ aget (.s "device_id") e = none := by
  have e : (match Val.look [.s "circuit"] (decodeWith decodeStatus sampleStatus.enc (.dict [])).2 with
      | some (.dict ((_, .dict e) :: _)) => decide (aget (.s "device_id") e = none)
      | _ => false) = true := by decide +kernel
  split at e
  · rename_i k e' rest h
    exact ⟨_, k, e', rest, .step .status sampleStatus.enc .init, h, by simpa using e⟩
  · simp at e

/-- The hypotheses of `C51_status` and `C52_config` are met by these messages on fresh and on configured data. -/
example (f : String → Except PyErr Rat) :
    (Reachable f (.dict []) ∧ LimitsOk (.dict [])) ∧ (Reachable f configured ∧ LimitsOk configured) := by
  refine ⟨⟨.init, limitsOk_of_none rfl⟩, C51_limits_ok (f := f) (.config _ .init ?_)⟩
  have := (C52_config f sampleConfig [] (.dict []) .init).1
  rwa [List.append_nil] at this

end SL
