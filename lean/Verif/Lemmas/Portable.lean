import Verif.Lemmas.Json
import Verif.Lemmas.Profile
/-! # Every tree the decoders build can be written and read back -/
namespace SL
open Prog (rd rdString rdArray rdTime rdMsgString offset store setdefault lookup throw loop forRange run andThen)
set_option linter.unusedVariables false

/-- Where in the tree a dict is, as far as the kind of its keys goes. -/
inductive Sch
  | root | circuits | bodies | pumps | pumpItem | presets | controller | ctlConfig | bodyTypes | plain
deriving DecidableEq

/-- The place of an entry. -/
def Sch.next : Sch → Key → Sch
  | .root, .s "circuit" => .circuits
  | .root, .s "body" => .bodies
  | .root, .s "pump" => .pumps
  | .root, .s "controller" => .controller
  | .pumps, _ => .pumpItem
  | .pumpItem, .s "preset" => .presets
  | .controller, .s "configuration" => .ctlConfig
  | .ctlConfig, .s "body_type" => .bodyTypes
  | _, _ => .plain

/-- Whether the keys are numbers. -/
def Sch.isInt : Sch → Bool
  | .circuits | .bodies | .pumps | .presets | .bodyTypes => true
  | _ => false

/-- The keys allowed at a place. -/
def KeyOK (s : Sch) : Key → Prop
  | .i _ => s.isInt = true
  | .s x => s.isInt = false ∧ PlainName x

/-- `PlainValue` as a check. -/
def valueB : Val → Bool
  | .int _ | .flt _ | .str _ => true
  | .tuple [.int _, .int _, .int _] => true
  | _ => false

theorem valueB_iff {v : Val} (h : valueB v = true) : PlainValue v := by
  unfold valueB at h
  unfold PlainValue
  split at h <;> first | trivial | cases h

mutual
/-- A tree with keys of the right kind. -/
def TreeOK (s : Sch) : Val → Prop
  | .tuple _ => False
  | .null => False
  | .list l => WritableL l
  | .dict kv => (akeys kv).Nodup ∧ ItemsOK s kv
  | _ => True
/-- Companion of `TreeOK`. -/
def ItemsOK (s : Sch) : List (Key × Val) → Prop
  | [] => True
  | (k, v) :: l => (KeyOK s k ∧ if k = .s "value" then valueB v = true else TreeOK (s.next k) v) ∧ ItemsOK s l
end

/-- One entry of a dict. -/
def EntryOK (s : Sch) (k : Key) (v : Val) : Prop := KeyOK s k ∧ if k = .s "value" then valueB v = true else TreeOK (s.next k) v

theorem itemsOK_iff {s : Sch} {kv : List (Key × Val)} : ItemsOK s kv ↔ ∀ e ∈ kv, EntryOK s e.1 e.2 := by
  induction kv with
  | nil => simp [ItemsOK]
  | cons e l ih => obtain ⟨k, v⟩ := e; simp [ItemsOK, ih, EntryOK]

/-- The object may be stored at the path. -/
def PathOK (s : Sch) : Path → Val → Prop
  | [], x => TreeOK s x
  | k :: ks, x => KeyOK s k ∧ if k = .s "value" then ks = [] ∧ valueB x = true else PathOK (s.next k) ks x

theorem treeOK_empty (s : Sch) : TreeOK s (.dict []) := ⟨by simp [akeys], trivial⟩

theorem treeOK_put {s : Sch} : ∀ {p : Path} {x d : Val}, TreeOK s d → PathOK s p x → TreeOK s (Val.put p x d)
  | [], x, d, hd, hp => by rw [Val.put]; exact hp
  | k :: ks, x, d, hd, hp => by
    obtain ⟨h1, h2⟩ := hp
    have key : ∀ v : Val, (k ≠ .s "value" → TreeOK (s.next k) v) → EntryOK s k (Val.put ks x v) := by
      intro v hv
      refine ⟨h1, ?_⟩
      split
      · rename_i hk
        rw [if_pos hk] at h2
        rw [h2.1, Val.put]; exact h2.2
      · rename_i hk
        rw [if_neg hk] at h2
        exact treeOK_put (hv hk) h2
    have other : TreeOK s (.dict [(k, Val.put ks x (.dict []))]) :=
      ⟨by simp [akeys], itemsOK_iff.2 (by
        intro e he
        rw [List.mem_singleton] at he
        subst he
        exact key _ (fun _ => treeOK_empty _))⟩
    cases d with
    | dict kv =>
      rw [Val.put]
      obtain ⟨hn, hi⟩ := hd
      refine ⟨nodup_aset hn, itemsOK_iff.2 (fun e he => ?_)⟩
      rw [itemsOK_iff] at hi
      rcases mem_aset he with rfl | h | h
      · refine key _ (fun hk => ?_)
        cases ha : aget k kv with
        | none => exact treeOK_empty _
        | some v =>
          have := (hi _ (mem_of_aget ha)).2
          rwa [if_neg hk] at this
      · exact hi e h.1
      · exact hi e h
    | _ => exact other

theorem treeOK_putNew {s : Sch} {p : Path} {x d : Val} (hd : TreeOK s d) (hp : PathOK s p x) : TreeOK s (Val.putNew p x d) := by
  unfold Val.putNew
  split
  · exact hd
  · exact treeOK_put hd hp

/-- The object found at a path (not below a "value"). -/
theorem treeOK_chain : ∀ {p : Path} {s : Sch} {d v : Val}, TreeOK s d → (∀ k ∈ p, k ≠ .s "value") → d.chain p = .ok (some v) →
    TreeOK (p.foldl Sch.next s) v
  | [], s, d, v, hd, _, h => by
    simp only [Val.chain, Except.ok.injEq, Option.some.injEq] at h
    subst h; exact hd
  | k :: ks, s, .dict kv, v, hd, hk, h => by
    rw [Val.chain] at h
    split at h
    · rename_i w hw
      have := (itemsOK_iff.1 hd.2 _ (mem_of_aget hw)).2
      rw [if_neg (hk k (by simp))] at this
      exact treeOK_chain (p := ks) (s := s.next k) (d := w) this (fun k' h' => hk k' (List.mem_cons_of_mem _ h')) h
    · simp at h
  | _ :: _, _, .null, _, _, _, h => by simp [Val.chain] at h
  | _ :: _, _, .int _, _, _, _, h => by simp [Val.chain] at h
  | _ :: _, _, .flt _, _, _, _, h => by simp [Val.chain] at h
  | _ :: _, _, .str _, _, _, _, h => by simp [Val.chain] at h
  | _ :: _, _, .bytes _, _, _, _, h => by simp [Val.chain] at h
  | _ :: _, _, .tuple _, _, _, _, h => by simp [Val.chain] at h
  | _ :: _, _, .list _, _, _, _, h => by simp [Val.chain] at h

/-- The path of the set point limits. -/
abbrev bodyTypePath : Path := [.s "controller", .s "configuration", .s "body_type"]

/-- What may be relied on about a looked-up object. -/
def Looked (p : Path) (v : Option Val) : Prop := ∀ x, p = bodyTypePath → v = some x → TreeOK .bodyTypes x

/-- Programs that store only what the tree allows. -/
def KeepsTree {α : Type} (Q : α → Prop) : Prog α → Prop
  | .pure a => Q a
  | .raise _ => True
  | .num _ k => ∀ x, KeepsTree Q (k x)
  | .str k => ∀ x, KeepsTree Q (k x)
  | .arr k => ∀ x, KeepsTree Q (k x)
  | .time k => ∀ x, KeepsTree Q (k x)
  | .msgStr k => ∀ x, KeepsTree Q (k x)
  | .off k => ∀ x, KeepsTree Q (k x)
  | .set p x k => PathOK .root p x ∧ KeepsTree Q k
  | .setdef p x k => PathOK .root p x ∧ KeepsTree Q k
  | .get p k => ∀ v, Looked p v → KeepsTree Q (k v)

theorem keeps_bind {α β : Type} {P : α → Prop} {Q : β → Prop} {p : Prog α} {k : α → Prog β} (hp : KeepsTree P p)
    (hk : ∀ a, P a → KeepsTree Q (k a)) : KeepsTree Q (p >>= k) := by
  show KeepsTree Q (p.bind k)
  induction p with
  | pure a => exact hk a hp
  | raise e => trivial
  | num f k' ih => exact fun x => ih x (hp x)
  | str k' ih => exact fun x => ih x (hp x)
  | time k' ih => exact fun x => ih x (hp x)
  | off k' ih => exact fun x => ih x (hp x)
  | arr k' ih => exact fun x => ih x (hp x)
  | msgStr k' ih => exact fun x => ih x (hp x)
  | set q x k' ih => exact ⟨hp.1, ih hp.2⟩
  | setdef q x k' ih => exact ⟨hp.1, ih hp.2⟩
  | get q k' ih => exact fun v hv => ih v (hp v hv)

theorem keeps_loop {σ : Type} {P : σ → Prop} {body : Nat → σ → Prog σ} (h : ∀ i s, P s → KeepsTree P (body i s)) :
    ∀ n i s, P s → KeepsTree P (loop body n i s)
  | 0, _, _, hs => hs
  | n + 1, i, s, hs => keeps_bind (h i s hs) (fun s hs => keeps_loop h n (i + 1) s hs)

theorem keeps_for {body : Nat → Prog Unit} (h : ∀ i, KeepsTree (fun _ => True) (body i)) (n : Nat) : KeepsTree (fun _ => True) (forRange n body) :=
  keeps_loop (fun i _ _ => h i) n 0 () trivial

theorem keeps_andThen {α γ : Type} {r : Except PyErr (γ × Nat)} {d : Val} {k : γ → Nat → Prog.Res α} (hd : TreeOK .root d)
    (hk : ∀ x o, TreeOK .root (k x o).2) : TreeOK .root (andThen r d k).2 := by
  unfold andThen
  split
  · exact hk _ _
  · exact hd

theorem keeps_run {α : Type} {Q : α → Prop} {p : Prog α} (hp : KeepsTree Q p) (buff : Bytes) : ∀ (o : Nat) (d : Val), TreeOK .root d →
    TreeOK .root (p.run buff o d).2 := by
  induction p with
  | pure a => exact fun o d hd => hd
  | raise e => exact fun o d hd => hd
  | num f k ih => exact fun o d hd => keeps_andThen hd (fun x o => ih x (hp x) o d hd)
  | str k ih => exact fun o d hd => keeps_andThen hd (fun x o => ih x (hp x) o d hd)
  | arr k ih => exact fun o d hd => keeps_andThen hd (fun x o => ih x (hp x) o d hd)
  | time k ih => exact fun o d hd => keeps_andThen hd (fun x o => ih x (hp x) o d hd)
  | msgStr k ih =>
    intro o d hd
    simp only [run]
    split
    · exact ih _ (hp _) o d hd
    · exact hd
  | off k ih => exact fun o d hd => ih o (hp o) o d hd
  | set q x k ih =>
    intro o d hd
    simp only [run]
    split
    · exact ih hp.2 o _ (treeOK_put hd hp.1)
    · exact hd
  | setdef q x k ih =>
    intro o d hd
    simp only [run]
    split
    · exact ih hp.2 o _ (treeOK_putNew hd hp.1)
    · exact hd
  | get q k ih =>
    intro o d hd
    simp only [run]
    split
    · rename_i v hv
      refine ih _ (hp v ?_) o d hd
      intro x hq hx
      subst hx; subst hq
      exact treeOK_chain (s := .root) hd (by decide) hv
    · exact hd

/-! ## Every decoder -/

section
variable {α : Type} {Q : α → Prop}
theorem kp_rd {g : Fmt} {k : Int → Prog α} (h : ∀ x, KeepsTree Q (k x)) : KeepsTree Q (rd g >>= k) := h
theorem kp_rdString {k : String → Prog α} (h : ∀ x, KeepsTree Q (k x)) : KeepsTree Q (rdString >>= k) := h
theorem kp_rdArray {k : List Int → Prog α} (h : ∀ x, KeepsTree Q (k x)) : KeepsTree Q (rdArray >>= k) := h
theorem kp_rdTime {k : DateTime → Prog α} (h : ∀ x, KeepsTree Q (k x)) : KeepsTree Q (rdTime >>= k) := h
theorem kp_rdMsgString {k : String → Prog α} (h : ∀ x, KeepsTree Q (k x)) : KeepsTree Q (rdMsgString >>= k) := h
theorem kp_offset {k : Nat → Prog α} (h : ∀ x, KeepsTree Q (k x)) : KeepsTree Q (offset >>= k) := h
theorem kp_store {p : Path} {x : Val} {k : Unit → Prog α} (h : PathOK .root p x) (hk : KeepsTree Q (k ())) : KeepsTree Q (store p x >>= k) := ⟨h, hk⟩
theorem kp_setdefault {p : Path} {x : Val} {k : Unit → Prog α} (h : PathOK .root p x) (hk : KeepsTree Q (k ())) :
    KeepsTree Q (setdefault p x >>= k) := ⟨h, hk⟩
theorem kp_store' {p : Path} {x : Val} {Q : Unit → Prop} (h : PathOK .root p x) (hq : Q ()) : KeepsTree Q (store p x) := ⟨h, hq⟩
theorem kp_lookup {p : Path} {k : Option Val → Prog α} (hk : ∀ v, Looked p v → KeepsTree Q (k v)) : KeepsTree Q (lookup p >>= k) := hk
theorem kp_pure {a : α} (h : Q a) : KeepsTree Q (pure a) := h
theorem kp_throw {e : PyErr} : KeepsTree Q (throw (α := α) e) := trivial
end

/-- An ordinary name: `PlainName`, and not one that means anything special to where it stands. -/
class Plain (s : String) : Prop where
  name : PlainName s
  ne_value : s ≠ "value"
  ne_bodyType : s ≠ "body_type"
  ne_preset : s ≠ "preset"

theorem plain_of {s : String} {c : Char} {l : List Char} (h : s.toList = c :: l) (h1 : 'a' ≤ c ∧ c ≤ 'z') (h2 : s ≠ "raw") (h3 : s ≠ "decoded")
    (h4 : s ≠ "value") (h5 : s ≠ "body_type") (h6 : s ≠ "preset") : Plain s := ⟨⟨⟨c, l, h, h1⟩, h2, h3⟩, h4, h5, h6⟩

/-- Check an ordinary name. -/
macro "plain_name" : tactic =>
  `(tactic| exact plain_of (by simp; exact ⟨rfl, rfl⟩) (by decide) (by simp) (by simp) (by simp) (by simp) (by simp))

instance : Plain "active_alert" := by plain_name
instance : Plain "adapter" := by plain_name
instance : Plain "air_temperature" := by plain_name
instance : Plain "alarm" := by plain_name
instance : Plain "alert" := by plain_name
instance : Plain "auto_dst" := by plain_name
instance : Plain "body" := by plain_name
instance : Plain "calcium_hardness" := by plain_name
instance : Plain "circuit" := by plain_name
instance : Plain "circuit_count" := by plain_name
instance : Plain "circuit_id" := by plain_name
instance : Plain "cleaner_delay" := by plain_name
instance : Plain "color" := by plain_name
instance : Plain "color_count" := by plain_name
instance : Plain "color_lights" := by plain_name
instance : Plain "color_mode" := by plain_name
instance : Plain "color_position" := by plain_name
instance : Plain "color_set" := by plain_name
instance : Plain "color_stagger" := by plain_name
instance : Plain "configuration" := by plain_name
instance : Plain "controller" := by plain_name
instance : Plain "controllerData" := by plain_name
instance : Plain "controllerType" := by plain_name
instance : Plain "controller_data" := by plain_name
instance : Plain "controller_id" := by plain_name
instance : Plain "controller_type" := by plain_name
instance : Plain "cool_setpoint" := by plain_name
instance : Plain "corrosive" := by plain_name
instance : Plain "cya" := by plain_name
instance : Plain "data" := by plain_name
instance : Plain "date_time" := by plain_name
instance : Plain "default_runtime" := by plain_name
instance : Plain "delay" := by plain_name
instance : Plain "delayDataArray" := by plain_name
instance : Plain "device_id" := by plain_name
instance : Plain "device_type" := by plain_name
instance : Plain "dose_status" := by plain_name
instance : Plain "enum_options" := by plain_name
instance : Plain "equipment" := by plain_name
instance : Plain "firmware" := by plain_name
instance : Plain "flags" := by plain_name
instance : Plain "flow_alarm" := by plain_name
instance : Plain "flowsDataArray" := by plain_name
instance : Plain "freeze_mode" := by plain_name
instance : Plain "function" := by plain_name
instance : Plain "generic_circuit_name" := by plain_name
instance : Plain "gpm_now" := by plain_name
instance : Plain "hardwareType" := by plain_name
instance : Plain "hardware_type" := by plain_name
instance : Plain "heat_mode" := by plain_name
instance : Plain "heat_setpoint" := by plain_name
instance : Plain "heat_state" := by plain_name
instance : Plain "intellichem" := by plain_name
instance : Plain "interface" := by plain_name
instance : Plain "interface_tab_flags" := by plain_name
instance : Plain "is_celsius" := by plain_name
instance : Plain "is_rpm" := by plain_name
instance : Plain "last_temperature" := by plain_name
instance : Plain "lightDataArray" := by plain_name
instance : Plain "limit" := by plain_name
instance : Plain "list" := by plain_name
instance : Plain "macrosDataArray" := by plain_name
instance : Plain "major" := by plain_name
instance : Plain "max_setpoint" := by plain_name
instance : Plain "min_setpoint" := by plain_name
instance : Plain "minor" := by plain_name
instance : Plain "miscDataArray" := by plain_name
instance : Plain "model" := by plain_name
instance : Plain "name" := by plain_name
instance : Plain "name_index" := by plain_name
instance : Plain "orp" := by plain_name
instance : Plain "orp_dosing_state" := by plain_name
instance : Plain "orp_high_alarm" := by plain_name
instance : Plain "orp_last_dose_time" := by plain_name
instance : Plain "orp_last_dose_volume" := by plain_name
instance : Plain "orp_limit" := by plain_name
instance : Plain "orp_low_alarm" := by plain_name
instance : Plain "orp_now" := by plain_name
instance : Plain "orp_setpoint" := by plain_name
instance : Plain "orp_supply_alarm" := by plain_name
instance : Plain "orp_supply_level" := by plain_name
instance : Plain "ph" := by plain_name
instance : Plain "ph_dosing_state" := by plain_name
instance : Plain "ph_high_alarm" := by plain_name
instance : Plain "ph_last_dose_time" := by plain_name
instance : Plain "ph_last_dose_volume" := by plain_name
instance : Plain "ph_limit" := by plain_name
instance : Plain "ph_lockout" := by plain_name
instance : Plain "ph_low_alarm" := by plain_name
instance : Plain "ph_now" := by plain_name
instance : Plain "ph_probe_water_temp" := by plain_name
instance : Plain "ph_setpoint" := by plain_name
instance : Plain "ph_supply_alarm" := by plain_name
instance : Plain "ph_supply_level" := by plain_name
instance : Plain "pool_delay" := by plain_name
instance : Plain "pool_setpoint" := by plain_name
instance : Plain "probe_fault_alarm" := by plain_name
instance : Plain "probe_is_celsius" := by plain_name
instance : Plain "progress" := by plain_name
instance : Plain "pump" := by plain_name
instance : Plain "remoteDataArray" := by plain_name
instance : Plain "remotes" := by plain_name
instance : Plain "rpm_now" := by plain_name
instance : Plain "salt_ppm" := by plain_name
instance : Plain "salt_tds_ppm" := by plain_name
instance : Plain "saturation" := by plain_name
instance : Plain "scaling" := by plain_name
instance : Plain "scg" := by plain_name
instance : Plain "scg_present" := by plain_name
instance : Plain "sensor" := by plain_name
instance : Plain "sensorDataArray" := by plain_name
instance : Plain "setpoint" := by plain_name
instance : Plain "sgsDataArray" := by plain_name
instance : Plain "show_alarms" := by plain_name
instance : Plain "spaFlowsDataArray" := by plain_name
instance : Plain "spa_delay" := by plain_name
instance : Plain "spa_setpoint" := by plain_name
instance : Plain "speedDataArray" := by plain_name
instance : Plain "state" := by plain_name
instance : Plain "state_type" := by plain_name
instance : Plain "step" := by plain_name
instance : Plain "super_chlor_timer" := by plain_name
instance : Plain "super_chlorinate" := by plain_name
instance : Plain "text" := by plain_name
instance : Plain "timestamp" := by plain_name
instance : Plain "timestamp_host" := by plain_name
instance : Plain "total_alkalinity" := by plain_name
instance : Plain "type" := by plain_name
instance : Plain "unit" := by plain_name
instance : Plain "valveDataArray" := by plain_name
instance : Plain "versionDataArray" := by plain_name
instance : Plain "water_balance" := by plain_name
instance : Plain "watts_now" := by plain_name

instance (o : Nat) : Plain (unknownAt o) := by
  have h : (unknownAt o).toList = 'u' :: ("nknown_at_offset_".toList ++ (fmt02 o).toList) := by
    unfold unknownAt
    rw [String.toList_append]; rfl
  exact plain_of h (by decide) (unknownAt_ne o _ (by decide)) (unknownAt_ne o _ (by decide)) (unknownAt_ne o _ (by decide))
    (unknownAt_ne o _ (by decide)) (unknownAt_ne o _ (by decide))

theorem writableL_map {A : Type} {f : A → Val} (h : ∀ a, Writable (f a)) : ∀ l : List A, WritableL (l.map f)
  | [] => trivial
  | a :: l => ⟨h a, writableL_map h l⟩

theorem treeOK_strs (s : Sch) (l : List String) : TreeOK s (.list (l.map .str)) := writableL_map (f := .str) (fun _ => trivial) l
theorem treeOK_ints (s : Sch) (l : List Int) : TreeOK s (.list (l.map .int)) := writableL_map (f := .int) (fun _ => trivial) l


theorem name_bodyType : PlainName "body_type" := ⟨⟨'b', "ody_type".toList, by simp, by decide⟩, by simp, by simp⟩
theorem name_preset : PlainName "preset" := ⟨⟨'p', "reset".toList, by simp, by decide⟩, by simp, by simp⟩
theorem name_value : PlainName "value" := ⟨⟨'v', "alue".toList, by simp, by decide⟩, by simp, by simp⟩

theorem key_s {a b : String} (h : a ≠ b) : Key.s a ≠ .s b := by intro e; injection e with e; exact h e
theorem pk_nil {s : Sch} {x : Val} (h : TreeOK s x) : PathOK s [] x := h
theorem pk_name {s t : Sch} {k : String} {ks : Path} {x : Val} (h0 : s.isInt = false) (hk : PlainName k) (hv : k ≠ "value")
    (hn : s.next (.s k) = t) (h : PathOK t ks x) : PathOK s (.s k :: ks) x :=
  ⟨⟨h0, hk⟩, by rw [if_neg (key_s hv), hn]; exact h⟩
theorem pk_num {s t : Sch} {n : Int} {ks : Path} {x : Val} (h0 : s.isInt = true) (hn : s.next (.i n) = t) (h : PathOK t ks x) : PathOK s (.i n :: ks) x :=
  ⟨h0, by rw [if_neg (fun h => Key.noConfusion h), hn]; exact h⟩

theorem po_plain {k : String} [h : Plain k] {ks : Path} {x : Val} (hp : PathOK .plain ks x) : PathOK .plain (.s k :: ks) x :=
  pk_name rfl h.name h.ne_value rfl hp
theorem po_value {x : Val} (h : valueB x = true) : PathOK .plain [.s "value"] x := ⟨⟨rfl, name_value⟩, by rw [if_pos rfl]; exact ⟨rfl, h⟩⟩
theorem po_plainBodyType {ks : Path} {x : Val} (hp : PathOK .plain ks x) : PathOK .plain (.s "body_type" :: ks) x :=
  pk_name rfl name_bodyType (by simp) rfl hp
theorem po_adapter {ks : Path} {x : Val} (h : PathOK .plain ks x) : PathOK .root (.s "adapter" :: ks) x := pk_name rfl Plain.name Plain.ne_value (by simp [Sch.next]) h
theorem po_scg {ks : Path} {x : Val} (h : PathOK .plain ks x) : PathOK .root (.s "scg" :: ks) x := pk_name rfl Plain.name Plain.ne_value (by simp [Sch.next]) h
theorem po_chem {ks : Path} {x : Val} (h : PathOK .plain ks x) : PathOK .root (.s "intellichem" :: ks) x := pk_name rfl Plain.name Plain.ne_value (by simp [Sch.next]) h
theorem po_equip {ks : Path} {x : Val} (h : PathOK .plain ks x) : PathOK .root (.s "equipment" :: ks) x := pk_name rfl Plain.name Plain.ne_value (by simp [Sch.next]) h
theorem po_circuit {ks : Path} {x : Val} (h : PathOK .circuits ks x) : PathOK .root (.s "circuit" :: ks) x := pk_name rfl Plain.name Plain.ne_value (by simp [Sch.next]) h
theorem po_body {ks : Path} {x : Val} (h : PathOK .bodies ks x) : PathOK .root (.s "body" :: ks) x := pk_name rfl Plain.name Plain.ne_value (by simp [Sch.next]) h
theorem po_pump {ks : Path} {x : Val} (h : PathOK .pumps ks x) : PathOK .root (.s "pump" :: ks) x := pk_name rfl Plain.name Plain.ne_value (by simp [Sch.next]) h
theorem po_controller {ks : Path} {x : Val} (h : PathOK .controller ks x) : PathOK .root (.s "controller" :: ks) x := pk_name rfl Plain.name Plain.ne_value (by simp [Sch.next]) h
theorem po_circuits {n : Int} {ks : Path} {x : Val} (h : PathOK .plain ks x) : PathOK .circuits (.i n :: ks) x := pk_num rfl rfl h
theorem po_bodies {n : Int} {ks : Path} {x : Val} (h : PathOK .plain ks x) : PathOK .bodies (.i n :: ks) x := pk_num rfl rfl h
theorem po_pumps {n : Int} {ks : Path} {x : Val} (h : PathOK .pumpItem ks x) : PathOK .pumps (.i n :: ks) x := pk_num rfl rfl h
theorem po_presets {n : Int} {ks : Path} {x : Val} (h : PathOK .plain ks x) : PathOK .presets (.i n :: ks) x := pk_num rfl rfl h
theorem po_bodyTypes {n : Int} {ks : Path} {x : Val} (h : PathOK .plain ks x) : PathOK .bodyTypes (.i n :: ks) x := pk_num rfl rfl h
theorem po_preset {ks : Path} {x : Val} (h : PathOK .presets ks x) : PathOK .pumpItem (.s "preset" :: ks) x := pk_name rfl name_preset (by simp) (by simp [Sch.next]) h
theorem po_pumpItem {k : String} [hk : Plain k] {ks : Path} {x : Val} (h : PathOK .plain ks x) : PathOK .pumpItem (.s k :: ks) x :=
  pk_name rfl hk.name hk.ne_value (by have := hk.ne_preset; simp [Sch.next, this]) h
theorem po_config {ks : Path} {x : Val} (h : PathOK .ctlConfig ks x) : PathOK .controller (.s "configuration" :: ks) x := pk_name rfl Plain.name Plain.ne_value (by simp [Sch.next]) h
theorem po_ctl {k : String} [hk : Plain k] {ks : Path} {x : Val} (h0 : k ≠ "configuration") (h : PathOK .plain ks x) : PathOK .controller (.s k :: ks) x :=
  pk_name rfl hk.name hk.ne_value (by simp [Sch.next, h0]) h
theorem po_bodyType {ks : Path} {x : Val} (h : PathOK .bodyTypes ks x) : PathOK .ctlConfig (.s "body_type" :: ks) x := pk_name rfl name_bodyType (by simp) (by simp [Sch.next]) h
theorem po_ctlConfig {k : String} [hk : Plain k] {ks : Path} {x : Val} (h : PathOK .plain ks x) : PathOK .ctlConfig (.s k :: ks) x :=
  pk_name rfl hk.name hk.ne_value (by have := hk.ne_bodyType; simp [Sch.next, this]) h

theorem tk_int {s : Sch} {n : Int} : TreeOK s (.int n) := trivial
theorem tk_flt {s : Sch} {n : Rat} : TreeOK s (.flt n) := trivial
theorem tk_str {s : Sch} {n : String} : TreeOK s (.str n) := trivial
theorem vb_int {n : Int} : valueB (.int n) = true := rfl
theorem vb_flt {n : Rat} : valueB (.flt n) = true := rfl
theorem vb_str {n : String} : valueB (.str n) = true := rfl
theorem tk_dict {s : Sch} {kv : List (Key × Val)} (h1 : (akeys kv).Nodup) (h2 : ItemsOK s kv) : TreeOK s (.dict kv) := ⟨h1, h2⟩
theorem ik_nil {s : Sch} : ItemsOK s [] := trivial
theorem ik_plain {k : String} [hk : Plain k] {v : Val} {l : List (Key × Val)} (h3 : TreeOK .plain v) (h4 : ItemsOK .plain l) :
    ItemsOK .plain ((.s k, v) :: l) := ⟨⟨⟨rfl, hk.name⟩, by rw [if_neg (key_s hk.ne_value)]; exact h3⟩, h4⟩
theorem ik_value {v : Val} {l : List (Key × Val)} (h2 : valueB v = true) (h4 : ItemsOK .plain l) : ItemsOK .plain ((.s "value", v) :: l) :=
  ⟨⟨⟨rfl, name_value⟩, by rw [if_pos rfl]; exact h2⟩, h4⟩
theorem ik_bodyType {v : Val} {l : List (Key × Val)} (h3 : TreeOK .plain v) (h4 : ItemsOK .plain l) : ItemsOK .plain ((.s "body_type", v) :: l) :=
  ⟨⟨⟨rfl, name_bodyType⟩, by rw [if_neg (key_s (by simp))]; exact h3⟩, h4⟩

/-- Check where an object is stored. -/
macro "path_ok" : tactic =>
  `(tactic| (try dsimp only [entry, aUnit, aDev, aState, aEnum, aRange, colorDict, List.cons_append, List.nil_append, chem, ctlSensor, ctlConfig]) <;>
    (repeat' with_reducible first
    | exact tk_int | exact tk_str | exact tk_flt | exact vb_int | exact vb_str | exact vb_flt
    | exact ik_nil
    | exact treeOK_strs _ _
    | exact treeOK_ints _ _
    | exact treeOK_empty _
    | refine po_value ?_
    | refine po_plain ?_ | refine po_plainBodyType ?_
    | refine po_scg ?_ | refine po_chem ?_ | refine po_controller ?_ | refine po_circuit ?_ | refine po_body ?_
    | refine po_pump ?_ | refine po_adapter ?_ | refine po_equip ?_
    | refine po_circuits ?_ | refine po_bodies ?_ | refine po_pumps ?_ | refine po_presets ?_ | refine po_bodyTypes ?_
    | refine po_preset ?_ | refine po_pumpItem ?_ | refine po_config ?_ | refine po_ctl (by simp) ?_
    | refine po_bodyType ?_ | refine po_ctlConfig ?_
    | refine pk_nil ?_
    | refine ik_value ?_ ?_
    | refine ik_plain ?_ ?_
    | refine ik_bodyType ?_ ?_
    | refine tk_dict (by simp [akeys]) ?_))

/-- One step. -/
macro "keep_step" : tactic =>
  `(tactic| first
    | (refine kp_rd (fun _ => ?_))
    | (refine kp_rdString (fun _ => ?_))
    | (refine kp_rdArray (fun _ => ?_))
    | (refine kp_rdTime (fun _ => ?_))
    | (refine kp_rdMsgString (fun _ => ?_))
    | (refine kp_offset (fun _ => ?_))
    | (refine kp_store (by path_ok; done) ?_)
    | (refine kp_store' (by path_ok; done) trivial)
    | (refine kp_setdefault (by path_ok; done) ?_)
    | exact kp_throw
    | exact kp_pure trivial)

/-- Nothing about the result. -/
abbrev Any {α : Type} : α → Prop := fun _ => True

theorem keeps_scg : KeepsTree Any decodeScg := by unfold decodeScg; repeat keep_step

theorem keeps_unit : KeepsTree Any getTemperatureUnit := by
  unfold getTemperatureUnit
  refine kp_lookup (fun v _ => ?_)
  cases v <;> exact kp_pure trivial

theorem keeps_chemistry : KeepsTree Any decodeChemistry := by
  unfold decodeChemistry
  refine keeps_bind (P := Any) (by unfold decodeChemistryA; repeat keep_step) (fun _ _ => ?_)
  refine keeps_bind (P := Any) ?_ (fun _ _ => ?_)
  · unfold decodeChemistryB
    repeat keep_step
    refine keeps_bind keeps_unit (fun _ _ => ?_)
    repeat keep_step
  refine keeps_bind (P := Any) (by unfold decodeChemistryC; repeat keep_step) (fun _ _ => ?_)
  unfold decodeChemistryD
  repeat keep_step

theorem keeps_subscript {s : Sch} {v : Val} {k : Key} (hk : k ≠ .s "value") (hv : TreeOK s v) : KeepsTree (TreeOK (s.next k)) (subscript v k) := by
  unfold subscript
  split
  · split
    · rename_i kv x hx
      have := (itemsOK_iff.1 hv.2 _ (mem_of_aget hx)).2
      rw [if_neg hk] at this
      exact kp_pure this
    · exact kp_throw
  · exact kp_throw

theorem keeps_subscript' (v : Val) (k : Key) : KeepsTree Any (subscript v k) := by
  unfold subscript
  split
  · split <;> trivial
  · trivial

theorem keeps_copySetpoints (i : Int) (o : Option Val) (t : Int) (h : Looked bodyTypePath o) : KeepsTree Any (copySetpoints i o t) := by
  unfold copySetpoints
  split
  · rename_i kv
    have hkv := h _ rfl rfl
    split
    · rename_i sp hsp
      have := (itemsOK_iff.1 hkv.2 _ (mem_of_aget hsp)).2
      rw [if_neg (by exact fun h => Key.noConfusion h)] at this
      split
      · refine keeps_bind (keeps_subscript (key_s Plain.ne_value) this) (fun lo hlo => ?_)
        refine kp_store (po_body (po_bodies (po_plain (pk_nil hlo)))) ?_
        refine keeps_bind (keeps_subscript (key_s Plain.ne_value) this) (fun hi hhi => ?_)
        exact kp_store' (po_body (po_bodies (po_plain (pk_nil hhi)))) trivial
      · exact kp_pure trivial
    · exact kp_pure trivial
  · split
    · exact kp_throw
    · exact kp_pure trivial
  · exact kp_pure trivial

theorem keeps_status : KeepsTree Any decodeStatus := by
  unfold decodeStatus
  refine keeps_bind (P := Any) ?_ (fun _ _ => ?_)
  · unfold decodeStatusHead
    repeat keep_step
    refine keeps_bind keeps_unit (fun _ _ => ?_)
    repeat keep_step
  keep_step
  refine kp_lookup (fun v hv => ?_)
  keep_step
  refine keeps_bind (keeps_for (fun i => ?_) _) (fun _ _ => ?_)
  · unfold decodeBody
    generalize (i : Int) = j
    keep_step; keep_step; keep_step
    refine keeps_bind (keeps_copySetpoints _ _ _ hv) (fun _ _ => ?_)
    repeat keep_step
  keep_step; keep_step
  refine keeps_bind (keeps_for (fun i => ?_) _) (fun _ _ => ?_)
  · unfold decodeStatusCircuit
    repeat keep_step
  unfold decodeStatusTail
  repeat keep_step

theorem keeps_color (i : Nat) (s : List Val) (h : WritableL s) : KeepsTree WritableL (decodeColor i s) := by
  unfold decodeColor
  repeat keep_step
  refine kp_pure ?_
  have : ∀ (a b : List Val), WritableL a → WritableL b → WritableL (a ++ b) := by
    intro a b ha hb
    induction a with
    | nil => exact hb
    | cons x a ih => exact ⟨ha.1, ih ha.2⟩
  refine this _ _ h ⟨⟨by simp, .inr ?_, ?_⟩, trivial⟩
  · intro k hk
    simp only [List.map_cons, List.map_nil, List.mem_cons, List.not_mem_nil, or_false] at hk
    rcases hk with rfl | rfl
    · exact ⟨_, rfl, Plain.name⟩
    · exact ⟨_, rfl, name_value⟩
  · refine ⟨?_, ?_, trivial⟩
    · rw [if_neg (by decide)]; trivial
    · rw [if_pos rfl]; trivial

theorem keeps_config : KeepsTree Any decodeConfig := by
  unfold decodeConfig
  refine keeps_bind (P := Any) ?_ (fun _ _ => ?_)
  · unfold decodeConfigHead
    keep_step; keep_step; keep_step; keep_step; keep_step
    refine keeps_bind (keeps_for (fun i => by unfold decodeSetpoints; repeat keep_step) _) (fun _ _ => ?_)
    repeat keep_step
    refine kp_lookup (fun _ _ => ?_)
    refine keeps_bind (P := Any) (by unfold maskFlags; split <;> first | exact kp_pure trivial | exact kp_throw) (fun _ _ => ?_)
    repeat keep_step
  keep_step; keep_step; keep_step
  refine keeps_bind (keeps_for (fun i => by unfold decodeConfigCircuit; repeat keep_step) _) (fun _ _ => ?_)
  keep_step; keep_step
  refine keeps_bind (keeps_loop keeps_color _ _ _ trivial) (fun l hl => ?_)
  refine kp_store (po_controller (po_config (po_ctlConfig (pk_nil hl)))) ?_
  keep_step
  refine keeps_bind (keeps_for (fun i => by unfold decodePumpData; repeat keep_step) _) (fun _ _ => ?_)
  repeat keep_step

theorem keeps_nameFromCircuits (dev : Int) (kv : List (Key × Val)) (n : String) : KeepsTree Any (nameFromCircuits dev kv n) := by
  induction kv with
  | nil => exact kp_pure trivial
  | cons a rest ih =>
    unfold nameFromCircuits
    refine keeps_bind (keeps_subscript' _ _) (fun d _ => ?_)
    split
    · refine keeps_bind (keeps_subscript' _ _) (fun x _ => ?_)
      cases x <;> first | exact kp_pure trivial | exact kp_throw
    · exact ih

theorem keeps_pump (pump : Int) : KeepsTree Any (decodePump pump) := by
  unfold decodePump
  keep_step; keep_step; keep_step; keep_step; keep_step; keep_step
  refine keeps_bind (P := Any) (by unfold setPumpState; split <;> repeat keep_step) (fun _ _ => ?_)
  repeat keep_step
  refine keeps_bind (P := Any) (keeps_loop (fun i s _ => ?_) _ _ _ trivial) (fun _ _ => ?_)
  · unfold decodePreset
    keep_step; keep_step; keep_step
    refine kp_lookup (fun v _ => ?_)
    refine keeps_bind (P := Any) ?_ (fun _ _ => ?_)
    · unfold pumpName
      split
      · exact kp_pure trivial
      · exact keeps_nameFromCircuits _ _ _
      · exact kp_throw
    repeat keep_step
  · unfold decodePumpTail
    repeat keep_step

theorem keeps_colorUpdate : KeepsTree Any decodeColorUpdate := by unfold decodeColorUpdate; repeat keep_step
theorem keeps_dateTime (now : Rat) : KeepsTree Any (decodeDateTime now) := by unfold decodeDateTime; repeat keep_step

theorem keeps_floatPart (g : String → Except PyErr Rat) (parts : List String) (i : Nat) : KeepsTree Any (floatPart g parts i) := by
  unfold floatPart
  split
  · trivial
  · split <;> trivial

theorem keeps_version (g : String → Except PyErr Rat) : KeepsTree Any (decodeVersion g) := by
  unfold decodeVersion
  keep_step; keep_step
  refine keeps_bind (keeps_floatPart _ _ _) (fun _ _ => ?_)
  refine keeps_bind (keeps_floatPart _ _ _) (fun _ _ => ?_)
  repeat keep_step

theorem keeps_equipment : KeepsTree Any decodeEquipment := by
  unfold decodeEquipment
  repeat keep_step

theorem keeps_prog (f : String → Except PyErr Rat) (D : Decoder) : KeepsTree Any (D.prog f) := by
  cases D with
  | status => exact keeps_status
  | config => exact keeps_config
  | scg => exact keeps_scg
  | chemistry => exact keeps_chemistry
  | pump i => exact keeps_pump i
  | colorUpdate => exact keeps_colorUpdate
  | version => exact keeps_version f
  | dateTime n => exact keeps_dateTime n
  | equipment => exact keeps_equipment

theorem reachable_tree {f : String → Except PyErr Rat} {d : Val} (h : Reachable f d) : TreeOK .root d := by
  induction h with
  | init => exact treeOK_empty _
  | step D buff _ ih => exact keeps_run (keeps_prog f D) buff 0 _ ih

/-! ## Reading back -/

theorem writableD_of {s : Sch} : ∀ {kv : List (Key × Val)}, ItemsOK s kv → (∀ e ∈ kv, e.1 ≠ .s "value" → Writable e.2) → WritableD kv
  | [], _, _ => trivial
  | (k, v) :: l, h, hw => by
    obtain ⟨⟨h1, h2⟩, h3⟩ := h
    refine ⟨?_, writableD_of h3 (fun e he => hw e (List.mem_cons_of_mem _ he))⟩
    split
    · rename_i hk
      rw [if_pos hk] at h2
      exact valueB_iff h2
    · rename_i hk
      exact hw (k, v) (by simp) hk

mutual
theorem tree_writable : ∀ (v : Val) (s : Sch), TreeOK s v → NumberKeys v → Writable v
  | .null, _, _, _ => trivial
  | .int _, _, _, _ => trivial
  | .flt _, _, _, _ => trivial
  | .str _, _, _, _ => trivial
  | .bytes _, _, _, _ => trivial
  | .tuple _, _, h, _ => h.elim
  | .list _, _, h, _ => h
  | .dict kv, s, h, hn => by
    obtain ⟨h1, h2⟩ := h
    refine ⟨h1, ?_, writableD_of h2 (tree_writableD kv s h2 ?_)⟩
    · cases hs : s.isInt with
      | true =>
        left
        intro k hk
        obtain ⟨e, he, rfl⟩ := List.mem_map.1 hk
        obtain ⟨k, v⟩ := e
        have hkey := (itemsOK_iff.1 h2 _ he).1
        cases k with
        | s x => simp [KeyOK, hs] at hkey
        | i n =>
          have := hn [] n (by simp [Val.look, aget_of_mem h1 he])
          exact ⟨n.toNat, by rw [Int.toNat_of_nonneg this.1], by have := this.2; omega⟩
      | false =>
        right
        intro k hk
        obtain ⟨e, he, rfl⟩ := List.mem_map.1 hk
        obtain ⟨k, v⟩ := e
        have hkey := (itemsOK_iff.1 h2 _ he).1
        cases k with
        | s x => exact ⟨x, rfl, hkey.2⟩
        | i n => simp [KeyOK, hs] at hkey
    · intro e he p n hl
      exact hn (e.1 :: p) n (by simpa [Val.look, aget_of_mem h1 he] using hl)
theorem tree_writableD : ∀ (kv : List (Key × Val)) (s : Sch), ItemsOK s kv → (∀ e ∈ kv, NumberKeys e.2) →
    ∀ e ∈ kv, e.1 ≠ .s "value" → Writable e.2
  | [], _, _, _, _, h, _ => by cases h
  | (k, v) :: l, s, h, hn, e, he, hk => by
    rcases List.mem_cons.1 he with rfl | he
    · have := h.1.2
      rw [if_neg hk] at this
      exact tree_writable v _ this (hn (k, v) (by simp))
    · exact tree_writableD l s h.2 (fun e he => hn e (List.mem_cons_of_mem _ he)) e he hk
end

end SL
