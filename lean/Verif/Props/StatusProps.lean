import Verif.Props.DecodeGeneral
/-!
# C51: pool status
-/
set_option linter.unusedSimpArgs false
namespace SL
open Spec
open Prog (rd rdString rdArray rdTime rdMsgString offset store setdefault lookup throw loop forRange)

/-- For each type of body the limits are unknown, or both known.  (Only a configuration message cut off between
the two limits of a body can make this false, see `LimitsKnown` below.) -/
def LimitsOk (d : Val) : Prop :=
  ∀ t : Int, t = 0 ∨ t = 1 → Val.look [.s "controller", .s "configuration", .s "body_type", .i t] d = none ∨
    Val.look [.s "controller", .s "configuration", .s "body_type", .i t] d = some (.dict []) ∨
    ∃ lo hi, Val.look (bt t "min_setpoint") d = some lo ∧ Val.look (bt t "max_setpoint") d = some hi

abbrev btPath : Path := [.s "controller", .s "configuration", .s "body_type"]

/-- What copying the limits stores. -/
def CopyLog (d : Val) (i t : Int) (ws : List W) : Prop :=
  (ws = [] ∧ Val.look (bt t "min_setpoint") d = none) ∨
    ∃ lo hi, Val.look (bt t "min_setpoint") d = some lo ∧ Val.look (bt t "max_setpoint") d = some hi ∧
      ws = [.set [.s "body", .i i, .s "min_setpoint"] lo, .set [.s "body", .i i, .s "max_setpoint"] hi]

theorem look_snoc {p : Path} {k : Key} {d : Val} {kv : List (Key × Val)} (h : Val.look p d = some (.dict kv)) :
    Val.look (p ++ [k]) d = aget k kv := by
  rw [look_append, h]
  simp only [Option.bind, look_cons_dict]
  cases aget k kv <;> rfl

theorem copy_trace {d : Val} (hs : Sound d) (hl : LimitsOk d) (i t : Int) (ht : t = 0 ∨ t = 1) :
    ∃ ws, (∀ env o r, trace env (copySetpoints i (Val.look btPath d) t) o r = (.ok ((), o, r), ws)) ∧ CopyLog d i t ws := by
  have h0 : ∀ k, Val.look (bt t k) d = (Val.look (btPath ++ [.i t]) d).bind (Val.look [.s k]) := by
    intro k; rw [← look_append]; rfl
  cases hb : Val.look btPath d with
  | none =>
    refine ⟨[], fun _ _ _ => rfl, .inl ⟨rfl, ?_⟩⟩
    rw [h0, look_append, hb]; rfl
  | some v =>
    have hd := hs.shaped btPath v rfl hb
    cases v with
    | dict kv =>
      have h1 := look_snoc (k := .i t) hb
      cases ha : aget (.i t) kv with
      | none =>
        refine ⟨[], fun _ _ _ => by simp only [copySetpoints, ha]; rfl, .inl ⟨rfl, ?_⟩⟩
        rw [h0, h1, ha]; rfl
      | some sp =>
        rw [ha] at h1
        have h1' : Val.look [.s "controller", .s "configuration", .s "body_type", .i t] d = some sp := h1
        rcases hl t ht with h2 | h2 | ⟨lo, hi, h2, h3⟩
        · rw [h2] at h1'; simp at h1'
        · rw [h2, Option.some.injEq] at h1'
          subst h1'
          refine ⟨[], fun _ _ _ => by simp only [copySetpoints, ha]; rfl, .inl ⟨rfl, ?_⟩⟩
          rw [h0, h1]; rfl
        · refine ⟨_, ?_, .inr ⟨lo, hi, h2, h3, rfl⟩⟩
          rw [h0, h1] at h2 h3
          have hspd := hs.shaped (btPath ++ [.i t]) sp rfl h1
          cases sp with
          | dict spkv =>
            simp only [Option.bind, look_cons_dict] at h2 h3
            cases h4 : aget (.s "min_setpoint") spkv with
            | none => rw [h4] at h2; simp at h2
            | some lo' =>
              cases h5 : aget (.s "max_setpoint") spkv with
              | none => rw [h5] at h3; simp at h3
              | some hi' =>
                rw [h4] at h2; rw [h5] at h3
                simp only [Val.look, Option.some.injEq] at h2 h3
                subst h2 h3
                intro env o r
                have hne : (Val.dict spkv).truthy = true := by
                  cases spkv with
                  | nil => simp [aget] at h4
                  | cons a b => rfl
                simp only [copySetpoints, ha, hne, if_true, subscript, h4, h5]
                rfl
          | _ => simp [Val.isDict] at hspd
    | _ => simp [Val.isDict] at hd

/-- Prefix a trace with a log. -/
theorem tr_log {α : Type} {env : Path → Option Val} {p : Prog Unit} {ws : List W} (h : ∀ o r, trace env p o r = (.ok ((), o, r), ws))
    (k : Unit → Prog α) (o : Nat) (r : Bytes) : trace env (p >>= k) o r = ((trace env (k ()) o r).1, ws ++ (trace env (k ()) o r).2) := by
  rw [tr_seq, h]; rfl

/-- What one body leaves in the log. -/
def BodyGood (d : Val) (i : Nat) (b : StatusBody) (ws : List W) : Prop :=
  (∀ w ∈ ws, w.under [.s "body", .i i]) ∧
  (∀ e ∈ b.readings i (unitOf d), hit e.1 ws.reverse = some e.2) ∧
  (∀ lo hi, Val.look (bt (bodyTypeShown b.bodyType.toNat) "min_setpoint") d = some lo →
    Val.look (bt (bodyTypeShown b.bodyType.toNat) "max_setpoint") d = some hi →
    hit (bodyPath i "min_setpoint") ws.reverse = some lo ∧ hit (bodyPath i "max_setpoint") ws.reverse = some hi)

theorem bodyType_shown (n : Nat) : ((enBodyType.parseInt (n : Int)).getD 0) = bodyTypeShown n := by
  unfold bodyTypeShown
  by_cases h0 : n = 0
  · subst h0; rfl
  · by_cases h1 : n = 1
    · subst h1; rfl
    · rw [if_neg h1]
      have e0 : ((n : Int) == 0) = false := by simp; omega
      have e1 : ((n : Int) == 1) = false := by simp; omega
      have e2 : ((0 : Int) == n) = false := by simp; omega
      have e3 : ((1 : Int) == n) = false := by simp; omega
      simp [EnumDef.parseInt, enBodyType, EnumDef.nameOf, e2, e3]

theorem bodyName_shown (n : Nat) :
    enBodyType.title ((enBodyType.nameOf (bodyTypeShown n)).getD "") = if n = 1 then "Spa" else "Pool" := by
  unfold bodyTypeShown
  split <;> decide

theorem trace_body {d : Val} (hs : Sound d) (hl : LimitsOk d) (i : Nat) (b : StatusBody) (s : Unit) (o : Nat) :
    ∃ ws, (∀ r, trace (fun g => Val.look g d) (decodeBody (unitOf d) (Val.look btPath d) i) o (b.enc ++ r) =
      (.ok (s, o + b.enc.length, r), ws)) ∧ BodyGood d i b ws := by
  obtain ⟨cw, h1, h2⟩ := copy_trace hs hl i (bodyTypeShown b.bodyType.toNat)
    (by unfold bodyTypeShown; split <;> simp)
  have h1' := fun (k : Unit → Prog Unit) => tr_log (h1 (fun g => Val.look g d)) k
  simp only [decodeBody, StatusBody.enc, List.flatten_cons, List.flatten_nil, List.append_nil, List.append_assoc,
    tr_setdefault, tr_I, tr_i, tr_store, tr_store', logged_ok, bodyType_shown, bodyName_shown, h1']
  refine ⟨_, fun r => rfl, ?_, ?_, ?_⟩
  · rcases h2 with ⟨rfl, h3⟩ | ⟨lo, hi, h3, h4, rfl⟩ <;>
    · simp only [logged, List.nil_append, List.cons_append, List.forall_mem_cons, W.under, W.path]
      simp [List.cons_prefix_cons]
  · simp only [StatusBody.readings, List.forall_mem_cons]
    rcases h2 with ⟨rfl, h3⟩ | ⟨lo, hi, h3, h4, rfl⟩ <;>
    · simp [logged, hit, W.avoids, bodyPath, value, List.isPrefixOf, Val.look, entry, aget, Val.isEmptyDict, aUnit, aDev, aState]
  · intro lo' hi' h5 h6
    rcases h2 with ⟨rfl, h3⟩ | ⟨lo, hi, h3, h4, rfl⟩
    · rw [h3] at h5; simp at h5
    · rw [h3, Option.some.injEq] at h5
      rw [h4, Option.some.injEq] at h6
      subst h5 h6
      simp [logged, hit, W.avoids, bodyPath, value, List.isPrefixOf, Val.look, entry, aget, Val.isEmptyDict, aUnit, aDev, aState]

/-- What one circuit leaves in the log. -/
def CircuitGood (c : StatusCircuit) (ws : List W) : Prop :=
  (∀ w ∈ ws, w.under [.s "circuit", .i c.id.toNat]) ∧ (∀ e ∈ c.readings, hit e.1 ws.reverse = some e.2)

theorem trace_statusCircuit (env : Path → Option Val) (i : Nat) (c : StatusCircuit) (s : Unit) (o : Nat) :
    ∃ ws, (∀ r, trace env (decodeStatusCircuit i) o (c.enc ++ r) = (.ok (s, o + c.enc.length, r), ws)) ∧ CircuitGood c ws := by
  simp only [decodeStatusCircuit, StatusCircuit.enc, List.flatten_cons, List.flatten_nil, List.append_nil, List.append_assoc,
    tr_setdefault, tr_I, tr_B, tr_store, tr_store', logged_ok]
  refine ⟨_, fun r => rfl, ?_, ?_⟩
  · simp only [List.forall_mem_cons, W.under, W.path]
    simp [List.cons_prefix_cons]
  · simp only [StatusCircuit.readings, List.forall_mem_cons]
    simp [hit, W.avoids, circuitPath, List.isPrefixOf, Val.look, colorDict, aget, Val.isEmptyDict]

theorem trace_statusHead (d : Val) (m : Status) :
    ∃ ws, (∀ r, trace (fun g => Val.look g d) decodeStatusHead 0
      (u32 m.state.toNat ++ ([m.freezeMode] ++ ([m.remotes] ++ ([m.poolDelay] ++ ([m.spaDelay] ++ ([m.cleanerDelay] ++
        ([m.unk9] ++ ([m.unk10] ++ ([m.unk11] ++ (s32 m.airTemp.toInt ++ r)))))))))) = (.ok (unitOf d, 16, r), ws)) ∧
      ∀ e ∈ (m.readings (unitOf d)).take 11, hit e.1 ws.reverse = some e.2 := by
  simp only [decodeStatusHead, tr_setdefault, tr_I, tr_i, tr_B, tr_store, tr_store', tr_offset, tr_unit, logged_ok, tr_pure]
  refine ⟨_, fun r => rfl, ?_⟩
  simp only [Status.readings, List.take, List.forall_mem_cons, show (0x08 : Nat) = 2 ^ 3 from rfl, onOff_bit]
  repeat (first | exact List.forall_mem_nil _ | refine ⟨rfl, ?_⟩)

theorem trace_statusTail (env : Path → Option Val) (m : Status) (unit : String) (o : Nat) :
    ∃ ws, (∀ r, trace env decodeStatusTail o
      (s32 m.ph.toInt ++ (s32 m.orp.toInt ++ (s32 m.saturation.toInt ++ (s32 m.salt.toInt ++ (s32 m.phTank.toInt ++
        (s32 m.orpTank.toInt ++ (s32 m.alert.toInt ++ r))))))) = (.ok ((), o + 28, r), ws)) ∧
      (∀ e ∈ (m.readings unit).drop 11, hit e.1 ws.reverse = some e.2) ∧
      (∀ e ∈ (m.readings unit).take 11, ∀ w ∈ ws, w.avoids e.1 = true) ∧
      (∀ w ∈ ws, w.under [.s "controller"]) := by
  simp only [decodeStatusTail, tr_i, tr_store, tr_store', logged_ok]
  refine ⟨_, fun r => rfl, ?_, ?_, ?_⟩
  · simp only [Status.readings, List.drop, List.forall_mem_cons]
    repeat (first | exact List.forall_mem_nil _ | refine ⟨rfl, ?_⟩)
  · simp only [Status.readings, List.take, List.forall_mem_cons]
    repeat (first | exact List.forall_mem_nil _ | refine ⟨⟨rfl, rfl, rfl, rfl, rfl, rfl, rfl, List.forall_mem_nil _⟩, ?_⟩)
  · simp only [List.forall_mem_cons, W.under, W.path]
    simp [List.cons_prefix_cons]

theorem status_readings_controller (m : Status) (u : String) :
    ∀ e ∈ m.readings u, ∃ k, e.1 = .s "controller" :: k := by
  simp only [Status.readings, List.forall_mem_cons]
  refine ⟨⟨_, rfl⟩, ⟨_, rfl⟩, ⟨_, rfl⟩, ⟨_, rfl⟩, ⟨_, rfl⟩, ⟨_, rfl⟩, ⟨_, rfl⟩, ⟨_, rfl⟩, ⟨_, rfl⟩, ⟨_, rfl⟩, ⟨_, rfl⟩,
    ⟨_, rfl⟩, ⟨_, rfl⟩, ⟨_, rfl⟩, ⟨_, rfl⟩, ⟨_, rfl⟩, ⟨_, rfl⟩, ⟨_, rfl⟩, List.forall_mem_nil _⟩

theorem body_readings_path (b : StatusBody) (i : Nat) (u : String) :
    ∀ e ∈ b.readings i u, ∃ k, e.1 = .s "body" :: .i i :: k := by
  simp only [StatusBody.readings, List.forall_mem_cons]
  refine ⟨⟨_, rfl⟩, ⟨_, rfl⟩, ⟨_, rfl⟩, ⟨_, rfl⟩, ⟨_, rfl⟩, ⟨_, rfl⟩, ⟨_, rfl⟩, ⟨_, rfl⟩, ⟨_, rfl⟩, ⟨_, rfl⟩,
    List.forall_mem_nil _⟩

theorem circuit_readings_path (c : StatusCircuit) :
    ∀ e ∈ c.readings, ∃ k, e.1 = .s "circuit" :: .i c.id.toNat :: k := by
  simp only [StatusCircuit.readings, List.forall_mem_cons]
  refine ⟨⟨_, rfl⟩, ⟨_, rfl⟩, ⟨_, rfl⟩, ⟨_, rfl⟩, ⟨_, rfl⟩, List.forall_mem_nil _⟩

theorem foldl_unit {A : Type} (as : List A) : as.foldl (fun (_ : Unit) _ => ()) () = () := rfl

/-- Everything a status message leaves in the log. -/
theorem trace_status {d : Val} (hs : Sound d) (hl : LimitsOk d) (m : Status) (t : Bytes) :
    ∃ o ws, trace (fun g => Val.look g d) decodeStatus 0 (m.enc ++ t) = (.ok ((), o, t), ws) ∧ o = m.enc.length ∧
      (∀ e ∈ m.readings (unitOf d), ∀ d', Val.look e.1 (replay ws d') = some e.2) ∧
      (∀ i b, m.bodies[i]? = some b → ∃ a bw c, ws = a ++ (bw ++ c) ∧ BodyGood d i b bw ∧
        ∀ w ∈ c, ∀ k, w.avoids (.s "body" :: .i i :: k) = true) ∧
      (∀ cs1 c cs2, m.circuits = cs1 ++ c :: cs2 → (∀ c' ∈ cs2, c'.id ≠ c.id) → ∃ a cw z, ws = a ++ (cw ++ z) ∧ CircuitGood c cw ∧
        ∀ w ∈ z, ∀ k, w.avoids (.s "circuit" :: .i c.id.toNat :: k) = true) := by
  obtain ⟨A, hA, hA2⟩ := trace_statusHead d m
  obtain ⟨B, hB, hB1, hB2⟩ := trace_rounds (env := fun g => Val.look g d) (enc := StatusBody.enc) (next := fun _ _ => ())
    (body := fun i _ => decodeBody (unitOf d) (Val.look btPath d) i) (Good := BodyGood d) m.bodies
    (fun i b _ s o => trace_body hs hl i b s o) 0 () (16 + 4)
  obtain ⟨C, hC, hC1, hC2⟩ := trace_rounds (env := fun g => Val.look g d) (enc := StatusCircuit.enc) (next := fun _ _ => ())
    (body := fun i _ => decodeStatusCircuit i) (Good := fun _ => CircuitGood) m.circuits
    (fun i c _ s o => trace_statusCircuit _ i c s o) 0 () (16 + 4 + (m.bodies.flatMap StatusBody.enc).length + 4)
  obtain ⟨T, hT, hT2, hT3, hT4⟩ := trace_statusTail (fun g => Val.look g d) m (unitOf d)
    (16 + 4 + (m.bodies.flatMap StatusBody.enc).length + 4 + (m.circuits.flatMap StatusCircuit.enc).length)
  have hmin : min ((m.bodies.length : Int).toNat) 2 = m.bodies.length := by
    have := m.atMostTwo; simp; omega
  have hlb : m.bodies.length < 4294967296 := by have := m.atMostTwo; omega
  refine ⟨16 + 4 + (m.bodies.flatMap StatusBody.enc).length + 4 + (m.circuits.flatMap StatusCircuit.enc).length + 28,
    A ++ (W.dflt [.s "body"] (.dict []) :: (B.flatten ++ (W.dflt [.s "circuit"] (.dict []) :: (C.flatten ++ T)))),
    ?_, ?_, ?_, ?_, ?_⟩
  · simp only [decodeStatus, Status.enc, List.flatten_cons, List.flatten_nil, List.append_nil, List.append_assoc, forRange]
    rw [tr_seq, hA, andThen_ok, tr_In _ _ _ hlb, tr_lookup, tr_setdefault]
    simp only [hmin]
    rw [tr_seq, hB, andThen_ok, tr_In _ _ _ m.countFits, tr_setdefault]
    simp only [Int.toNat_natCast]
    rw [tr_seq, hC, andThen_ok, hT]
    rfl
  · simp only [Status.enc, List.flatten_cons, List.flatten_nil, List.append_nil, List.length_append, List.length_cons,
      List.length_nil, length_u32, length_s32]
    omega
  · intro e he d'
    obtain ⟨k, hk⟩ := status_readings_controller m (unitOf d) e he
    rw [← List.take_append_drop 11 (m.readings (unitOf d)), List.mem_append] at he
    rcases he with he | he
    · refine look_of_hit_mid (a := []) (hA2 e he) ?_ d'
      intro w hw
      have hcase := hw
      rw [List.mem_cons, List.mem_append, List.mem_cons, List.mem_append] at hcase
      rcases hcase with rfl | hcase | rfl | hcase | hcase
      · rw [hk]; rfl
      · rw [hk]
        obtain ⟨j, a, ws, h1, h2, h3, h4⟩ := rounds_mem hB1 hB2 hcase
        exact avoids_of_diverge (pre := []) (a := .s "body") (by decide) (under_mono (by simp) (h3.1 w h4))
      · rw [hk]; rfl
      · rw [hk]
        obtain ⟨j, a, ws, h1, h2, h3, h4⟩ := rounds_mem (Good := fun _ => CircuitGood) (i := 0) hC1 hC2 hcase
        exact avoids_of_diverge (pre := []) (a := .s "circuit") (by decide) (under_mono (by simp) (h3.1 w h4))
      · exact hT3 e he w hcase
    · have := look_of_hit_mid (a := A ++ (W.dflt [.s "body"] (.dict []) :: (B.flatten ++ (W.dflt [.s "circuit"] (.dict []) :: C.flatten))))
        (b := []) (hT2 e he) (by simp) d'
      simpa using this
  · intro i b hb
    obtain ⟨bw, h1, h2⟩ := hB2 i b hb
    rw [Nat.zero_add] at h2
    refine ⟨A ++ (W.dflt [.s "body"] (.dict []) :: (B.take i).flatten), bw,
      (B.drop (i + 1)).flatten ++ (W.dflt [.s "circuit"] (.dict []) :: (C.flatten ++ T)), ?_, h2, ?_⟩
    · rw [rounds_split h1]; simp
    · intro w hw k
      rw [List.mem_append, List.mem_cons, List.mem_append] at hw
      rcases hw with hw | rfl | hw | hw
      · obtain ⟨j, a, ws, h3, h4, h5, h6⟩ := rounds_mem_drop hB1 hB2 hw
        refine avoids_of_diverge (pre := [.s "body"]) (a := .i ((0 + j : Nat) : Int)) ?_ (h5.1 w h6)
        simp only [ne_eq, Key.i.injEq]; omega
      · rfl
      · obtain ⟨j, a, ws, h1, h2, h3, h4⟩ := rounds_mem (Good := fun _ => CircuitGood) (i := 0) hC1 hC2 hw
        exact avoids_of_diverge (pre := []) (a := .s "circuit") (by decide) (under_mono (by simp) (h3.1 w h4))
      · exact avoids_of_diverge (pre := []) (a := .s "controller") (by decide) (hT4 w hw)
  · intro cs1 c cs2 hcs hlast
    have hc : m.circuits[cs1.length]? = some c := by rw [hcs]; simp
    obtain ⟨cw, h1, h2⟩ := hC2 _ c hc
    refine ⟨A ++ (W.dflt [.s "body"] (.dict []) :: (B.flatten ++ (W.dflt [.s "circuit"] (.dict []) :: (C.take cs1.length).flatten))),
      cw, (C.drop (cs1.length + 1)).flatten ++ T, ?_, h2, ?_⟩
    · rw [rounds_split h1]; simp
    · intro w hw k
      rw [List.mem_append] at hw
      rcases hw with hw | hw
      · obtain ⟨j, a, ws, h3, h4, h5, h6⟩ := rounds_mem_drop (Good := fun _ => CircuitGood) (i := 0) hC1 hC2 hw
        have ha : a ∈ cs2 := by
          rw [hcs, List.getElem?_append_right (by omega)] at h4
          obtain ⟨n, hn⟩ : ∃ n, j - cs1.length = n + 1 := ⟨j - cs1.length - 1, by omega⟩
          rw [hn, List.getElem?_cons_succ] at h4
          exact List.mem_of_getElem? h4
        refine avoids_of_diverge (pre := [.s "circuit"]) (a := .i (a.id.toNat : Int)) ?_ (h5.1 w h6)
        simp only [ne_eq, Key.i.injEq]
        intro h
        exact hlast a ha (UInt32.toNat_inj.1 (by omega))
      · exact avoids_of_diverge (pre := []) (a := .s "controller") (by decide) (hT4 w hw)

/-- C51: decoding a pool status message succeeds and makes every reading available under its documented path
with the value in the message, whatever data the gateway holds (with limits known or not); of several circuits
with the same id the last one counts; the temperature unit is the controller's; the limits of a body are those
of its type in the configuration, if known. -/
theorem C51_status (f : String → Except PyErr Rat) (m : Status) (t : Bytes) (d : Val) (hd : Reachable f d)
    (hl : LimitsOk d) :
    let r := decodeWith decodeStatus (m.enc ++ t) d
    r.1 = .ok () ∧
    (∀ e ∈ m.readings (unitOf d), Val.look e.1 r.2 = some e.2) ∧
    (∀ (i : Nat) (b : StatusBody), m.bodies[i]? = some b → ∀ e ∈ b.readings i (unitOf d), Val.look e.1 r.2 = some e.2) ∧
    (∀ cs1 c cs2, m.circuits = cs1 ++ c :: cs2 → (∀ c' ∈ cs2, c'.id ≠ c.id) →
      ∀ e ∈ c.readings, Val.look e.1 r.2 = some e.2) ∧
    (∀ (i : Nat) (b : StatusBody), m.bodies[i]? = some b → ∀ lo hi,
      Val.look (bt (bodyTypeShown b.bodyType.toNat) "min_setpoint") d = some lo →
      Val.look (bt (bodyTypeShown b.bodyType.toNat) "max_setpoint") d = some hi →
      Val.look (bodyPath i "min_setpoint") r.2 = some lo ∧ Val.look (bodyPath i "max_setpoint") r.2 = some hi) := by
  obtain ⟨o, ws, ht, ho, h1, h2, h3⟩ := trace_status (reachable_sound hd) hl m t
  have hr : decodeWith decodeStatus (m.enc ++ t) d = (.ok (), replay ws d) :=
    decode_ok f .status rfl _ (reachable_sound hd) ht
  intro r
  have hr' : r = (.ok (), replay ws d) := hr
  rw [hr']
  refine ⟨rfl, fun e he => h1 e he d, ?_, ?_, ?_⟩
  · intro i b hb e he
    obtain ⟨a, bw, c, rfl, hg, hc⟩ := h2 i b hb
    obtain ⟨k, hk⟩ : ∃ k, e.1 = .s "body" :: .i i :: k := body_readings_path b i _ e he
    exact look_of_hit_mid (hg.2.1 e he) (fun w hw => by rw [hk]; exact hc w hw k) d
  · intro cs1 c cs2 hcs hlast e he
    obtain ⟨a, cw, z, rfl, hg, hz⟩ := h3 cs1 c cs2 hcs hlast
    obtain ⟨k, hk⟩ : ∃ k, e.1 = .s "circuit" :: .i c.id.toNat :: k := circuit_readings_path c e he
    exact look_of_hit_mid (hg.2 e he) (fun w hw => by rw [hk]; exact hz w hw k) d
  · intro i b hb lo hi hlo hhi
    obtain ⟨a, bw, c, rfl, hg, hc⟩ := h2 i b hb
    obtain ⟨g1, g2⟩ := hg.2.2 lo hi hlo hhi
    exact ⟨look_of_hit_mid g1 (fun w hw => hc w hw _) d, look_of_hit_mid g2 (fun w hw => hc w hw _) d⟩


/-! ### The condition on the limits -/

/-- The limits of both types of body are known. -/
def LimitsKnown (d : Val) : Prop :=
  ∀ t : Int, t = 0 ∨ t = 1 → ∃ lo hi, Val.look (bt t "min_setpoint") d = some lo ∧ Val.look (bt t "max_setpoint") d = some hi

theorem limitsOk_of_known {d : Val} (h : LimitsKnown d) : LimitsOk d := fun t ht => .inr (.inr (h t ht))

theorem limitsOk_of_none {d : Val} (h : Val.look btPath d = none) : LimitsOk d := by
  intro t _
  refine .inl ?_
  show Val.look (btPath ++ [.i t]) d = none
  rw [look_append, h]; rfl

theorem present_run {α : Type} {f : Profile} {p : Prog α} (hf : Conforms f p) (m : Bytes) (o : Nat) (d : Val) (q : Path)
    (hq : isNode q.dropLast = true) (h : (Val.look q d).isSome) : (Val.look q (p.run m o d).2).isSome := by
  have hpre : ∀ p : Path, p <+: q → p ≠ q → isNode p = true := by
    intro p hp hne
    refine isNode_prefix hq ?_
    obtain ⟨r, rfl⟩ := hp
    have : r ≠ [] := by rintro rfl; simp at hne
    rw [List.dropLast_append_of_ne_nil this]
    exact List.prefix_append _ _
  have hput : ∀ p x (d : Val), isNode p = false → (Val.look q d).isSome → (Val.look q (Val.put p x d)).isSome := by
    intro p x d hn h
    by_cases h1 : p <+: q
    · by_cases h2 : p = q
      · subst h2; rw [look_put_same]; rfl
      · rw [hpre p h1 h2] at hn; simp at hn
    · by_cases h2 : q <+: p
      · obtain ⟨kv, hkv⟩ := look_put_above x d h2 (by rintro rfl; exact h1 h2)
        rw [hkv]; rfl
      · rw [look_put_other x d h1 h2]; exact h
  refine run_rel (R := fun a b => (Val.look q a).isSome → (Val.look q b).isSome) (fun _ h => h)
    (fun a b c h1 h2 h => h2 (h1 h)) ?_ ?_ hf m o d h
  · intro p x d hop h
    refine hput p x d ?_ h
    simp only [opOK, Bool.and_eq_true, Bool.not_eq_true', defaulted, Bool.or_eq_false_iff] at hop
    exact hop.2.2.1
  · intro p x d _ h
    cases hp : Val.look p d with
    | some y => rw [putNew_of_some hp]; exact h
    | none =>
      rw [putNew_of_none hp]
      by_cases h1 : p <+: q
      · obtain ⟨y, hy⟩ := Option.isSome_iff_exists.1 h
        obtain ⟨z, hz⟩ := look_prefix_some h1 hy
        rw [hp] at hz; simp at hz
      · by_cases h2 : q <+: p
        · obtain ⟨kv, hkv⟩ := look_put_above x d h2 (by rintro rfl; exact h1 h2)
          rw [hkv]; rfl
        · rw [look_put_other x d h1 h2]; exact h

/-- Data never disappears: whatever is available directly under a group stays available (possibly with another
value) after any decoder call, on any bytes, failing or not. -/
theorem present_stays (f : String → Except PyErr Rat) (D : Decoder) (m : Bytes) (d : Val) (q : Path)
    (hq : isNode q.dropLast = true) (h : (Val.look q d).isSome) : (Val.look q (decodeWith (D.prog f) m d).2).isSome :=
  present_run (D.fits f) m 0 d q hq h

/-- Once known, the limits stay known. -/
theorem limitsKnown_stays (f : String → Except PyErr Rat) (D : Decoder) (m : Bytes) (d : Val) (h : LimitsKnown d) :
    LimitsKnown (decodeWith (D.prog f) m d).2 := by
  intro t ht
  obtain ⟨lo, hi, h1, h2⟩ := h t ht
  obtain ⟨lo', h3⟩ := Option.isSome_iff_exists.1 (present_stays f D m d (bt t "min_setpoint") rfl (by rw [h1]; rfl))
  obtain ⟨hi', h4⟩ := Option.isSome_iff_exists.1 (present_stays f D m d (bt t "max_setpoint") rfl (by rw [h2]; rfl))
  exact ⟨lo', hi', h3, h4⟩

theorem gets_stay {f : Profile} {p : Prog Unit} (h : Conforms f p) (m : Bytes) (d : Val) (g : Path) (hg : g ∈ f.gets) :
    Val.look g (p.run m 0 d).2 = Val.look g d := by
  refine run_rel (R := fun a b => Val.look g b = Val.look g a) (fun _ => rfl)
    (fun a b c h1 h2 => by rw [h2, h1]) ?_ ?_ h m 0 d
  · intro p x d hop
    simp only [opOK, Bool.and_eq_true, List.all_eq_true] at hop
    have := hop.1 g hg
    simp only [Bool.not_eq_true', ← Bool.not_eq_true, List.isPrefixOf_iff_prefix] at this
    exact look_put_other x d this.1 this.2
  · intro p x d hop
    simp only [opOK, Bool.and_eq_true, List.all_eq_true] at hop
    have := hop.1 g hg
    exact look_avoid (w := .dflt p x) (by simpa [W.avoids] using this) d

/-- Only configuration messages bring limits. -/
theorem limits_only_config (f : String → Except PyErr Rat) (D : Decoder) (hD : D ≠ .config) (m : Bytes) (d : Val) :
    Val.look btPath (decodeWith (D.prog f) m d).2 = Val.look btPath d := by
  cases D with
  | config => exact absurd rfl hD
  | status => exact gets_stay fits_status m d _ (by simp)
  | colorUpdate => exact gets_stay fits_colorUpdate m d _ (by simp)
  | dateTime now => exact gets_stay (fits_dateTime now) m d _ (by simp)
  | scg => exact C58_frame_below f .scg m d _ _ (by simp [branches])
  | chemistry => exact C58_frame_below f .chemistry m d _ _ (by simp [branches])
  | pump i => exact C58_frame_below f (.pump i) m d _ _ (by simp [branches])
  | version => exact C58_frame_below f .version m d _ _ (by simp [branches])
  | equipment => exact C58_frame_below f .equipment m d _ _ (by simp [branches])


/-- Every successful run stores something at `q`. -/
def Ensures {α : Type} (q : Path) : Prog α → Prop
  | .pure _ => False
  | .raise _ => True
  | .num _ k => ∀ x, Ensures q (k x)
  | .str k => ∀ x, Ensures q (k x)
  | .arr k => ∀ x, Ensures q (k x)
  | .time k => ∀ x, Ensures q (k x)
  | .msgStr k => ∀ x, Ensures q (k x)
  | .off k => ∀ x, Ensures q (k x)
  | .set p _ k => p = q ∨ Ensures q k
  | .setdef _ _ k => Ensures q k
  | .get _ k => ∀ x, Ensures q (k x)

theorem ensures_bind {α β : Type} {q : Path} {p : Prog α} (h : Ensures q p) (k : α → Prog β) : Ensures q (p >>= k) := by
  show Ensures q (p.bind k)
  induction p with
  | pure a => exact h.elim
  | raise e => trivial
  | num f k' ih => exact fun x => ih x (h x)
  | str k' ih => exact fun x => ih x (h x)
  | arr k' ih => exact fun x => ih x (h x)
  | time k' ih => exact fun x => ih x (h x)
  | msgStr k' ih => exact fun x => ih x (h x)
  | off k' ih => exact fun x => ih x (h x)
  | set p x k' ih => exact h.imp id ih
  | setdef p x k' ih => exact ih h
  | get p k' ih => exact fun x => ih x (h x)

theorem ensures_run {α : Type} {f : Profile} {q : Path} (hq : isNode q.dropLast = true) {p : Prog α} (hf : Conforms f p)
    (he : Ensures q p) (m : Bytes) (o : Nat) (d : Val) {r : α × Nat} (h : (p.run m o d).1 = .ok r) :
    (Val.look q (p.run m o d).2).isSome := by
  have key : ∀ {γ : Type} {x : Except PyErr (γ × Nat)} {d : Val} {k : γ → Nat → Prog.Res α}, (Prog.andThen x d k).1 = .ok r →
      (∀ a o, (k a o).1 = .ok r → (Val.look q (k a o).2).isSome) → (Val.look q (Prog.andThen x d k).2).isSome := by
    intro γ x d k h1 h2
    cases x with
    | error e => simp [Prog.andThen] at h1
    | ok a => exact h2 _ _ h1
  induction p generalizing o d with
  | pure a => exact he.elim
  | raise e => simp [Prog.run] at h
  | num f k ih => exact key h (fun a o h => ih a (hf a) (he a) o d h)
  | str k ih => exact key h (fun a o h => ih a (hf a) (he a) o d h)
  | arr k ih => exact key h (fun a o h => ih a (hf.2 a) (he a) o d h)
  | time k ih => exact key h (fun a o h => ih a (hf a) (he a) o d h)
  | msgStr k ih =>
    simp only [Prog.run] at h ⊢
    split at h
    · exact ih _ (hf.2 _) (he _) o d h
    · simp at h
  | off k ih => exact ih o (hf o) (he o) o d h
  | set p x k ih =>
    simp only [Prog.run] at h ⊢
    split at h
    · rcases he with rfl | he
      · exact present_run hf.2 m o _ p hq (by rw [look_put_same]; rfl)
      · exact ih hf.2 he o _ h
    · simp at h
  | setdef p x k ih =>
    simp only [Prog.run] at h ⊢
    split at h
    · exact ih hf.2 he o _ h
    · simp at h
  | get p k ih =>
    simp only [Prog.run] at h ⊢
    split at h
    · exact ih _ (hf.2 _) (he _) o d h
    · simp at h

/-- A configuration message that decodes brings the limits. -/
theorem limitsKnown_config (m : Bytes) (d : Val) (h : (decodeWith decodeConfig m d).1 = .ok ()) :
    LimitsKnown (decodeWith decodeConfig m d).2 := by
  have hr : ∃ r, (decodeConfig.run m 0 d).1 = .ok r := by
    unfold decodeWith at h
    cases h1 : (decodeConfig.run m 0 d).1 with
    | ok r => exact ⟨r, rfl⟩
    | error e => simp [h1, Except.map] at h
  obtain ⟨r, hr⟩ := hr
  have hE : ∀ t : Int, t = 0 ∨ t = 1 → ∀ k, k = "min_setpoint" ∨ k = "max_setpoint" → Ensures (bt t k) decodeConfig := by
    intro t ht k hk
    unfold decodeConfig
    apply ensures_bind
    rcases ht with rfl | rfl <;> rcases hk with rfl | rfl <;>
    simp [decodeConfigHead, bind, Prog.bind, rd, store, setdefault, forRange, loop, decodeSetpoints, Ensures, bt]
  have key : ∀ t : Int, t = 0 ∨ t = 1 → ∀ k, k = "min_setpoint" ∨ k = "max_setpoint" →
      (Val.look (bt t k) (decodeConfig.run m 0 d).2).isSome := fun t ht k hk =>
    ensures_run rfl fits_config (hE t ht k hk) m 0 d hr
  intro t ht
  obtain ⟨lo, h1⟩ := Option.isSome_iff_exists.1 (key t ht "min_setpoint" (.inl rfl))
  obtain ⟨hi, h2⟩ := Option.isSome_iff_exists.1 (key t ht "max_setpoint" (.inr rfl))
  exact ⟨lo, hi, h1, h2⟩

/-- Data of a gateway whose configuration messages were all complete (all other messages are arbitrary). -/
inductive Healthy (f : String → Except PyErr Rat) : Val → Prop
  | init : Healthy f (.dict [])
  | config {d : Val} (m : Bytes) : Healthy f d → (decodeWith decodeConfig m d).1 = .ok () →
      Healthy f (decodeWith decodeConfig m d).2
  | other {d : Val} (D : Decoder) (m : Bytes) : Healthy f d → D ≠ .config → Healthy f (decodeWith (D.prog f) m d).2

theorem healthy_reachable {f : String → Except PyErr Rat} {d : Val} (h : Healthy f d) : Reachable f d := by
  induction h with
  | init => exact .init
  | config m _ _ ih => exact .step .config m ih
  | other D m _ _ ih => exact .step D m ih

theorem healthy_limits {f : String → Except PyErr Rat} {d : Val} (h : Healthy f d) :
    Val.look btPath d = none ∨ LimitsKnown d := by
  induction h with
  | init => exact .inl rfl
  | config m _ hok _ => exact .inr (limitsKnown_config m _ hok)
  | other D m _ hD ih =>
    rcases ih with h | h
    · exact .inl (by rw [limits_only_config f D hD, h])
    · exact .inr (limitsKnown_stays f D m _ h)

/-- The condition of `C51_status` on the limits holds as long as no configuration message was cut short. -/
theorem C51_limits_ok {f : String → Except PyErr Rat} {d : Val} (h : Healthy f d) : Reachable f d ∧ LimitsOk d :=
  ⟨healthy_reachable h, (healthy_limits h).elim limitsOk_of_none limitsOk_of_known⟩

end SL
