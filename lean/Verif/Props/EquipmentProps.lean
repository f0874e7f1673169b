import Verif.Props.DecodeGeneral
import Verif.Props.Codec
/-!
# C79: the equipment configuration message
-/
set_option linter.unusedVariables false
namespace SL
open Spec
open Prog (rd rdString rdArray rdTime rdMsgString offset store setdefault lookup throw loop forRange)

theorem tr_arr {α : Type} (env : Path → Option Val) (o : Nat) (r : Bytes) (a : ByteArr) (k : List Int → Prog α) :
    trace env (rdArray >>= k) o (a.enc ++ r) =
      trace env (k (a.items.map (fun b => (b.toNat : Int)))) (o + a.enc.length) r := by
  have h := C07_get_array [] a.items r a.short
  simp only [List.nil_append, List.length_nil, Nat.zero_add] at h
  show trace env (.arr k) o (block a.items ++ r) = _
  simp only [trace, h, onRead, ByteArr.enc, List.drop_left]

theorem tr_equipArray {α : Type} (env : Path → Option Val) (o : Nat) (r : Bytes) (a : ByteArr) (key : String)
    (k : Unit → Prog α) :
    trace env (decodeEquipArray key >>= k) o (a.enc ++ r) =
      logged (.set [.s "equipment", .s key] a.shown) (trace env (k ()) (o + a.enc.length) r) := by
  simp only [decodeEquipArray, prog_assoc, tr_arr, tr_store, ByteArr.shown, List.map_map]
  rfl

theorem tr_equipArray' (env : Path → Option Val) (o : Nat) (r : Bytes) (a : ByteArr) (key : String) :
    trace env (decodeEquipArray key) o (a.enc ++ r) =
      (.ok ((), o + a.enc.length, r), [.set [.s "equipment", .s key] a.shown]) := by
  simp only [decodeEquipArray, prog_assoc, tr_arr, tr_store', ByteArr.shown, List.map_map]
  rfl

theorem trace_equipment (env : Path → Option Val) (m : Equipment) (t : Bytes) :
    ∃ o ws, trace env decodeEquipment 0 (m.enc ++ t) = (.ok ((), o, t), ws) ∧
      ∀ e ∈ m.readings, hit e.1 ws.reverse = some e.2 := by
  have u2 : unknownAt (0 + 1 + 1) = "unknown_at_offset_02" := by decide
  have u3 : unknownAt (0 + 1 + 1 + 1) = "unknown_at_offset_03" := by decide
  simp only [decodeEquipment, Equipment.enc, List.flatten_cons, List.flatten_nil, List.append_nil, List.append_assoc,
    prog_assoc, tr_setdefault, tr_I, tr_B, tr_store, tr_offset, tr_equipArray, tr_equipArray', logged_ok, u2, u3]
  refine ⟨_, _, rfl, ?_⟩
  simp only [Equipment.readings, List.forall_mem_cons]
  repeat (first | exact List.forall_mem_nil _ | refine ⟨rfl, ?_⟩)

/-- C79: decoding an equipment configuration message makes every field and each of the twelve byte arrays, of
whatever lengths, available under its own name, whatever data the gateway holds. -/
theorem C79_equipment (f : String → Except PyErr Rat) (m : Equipment) (t : Bytes) (d : Val) (hd : Reachable f d) :
    (decodeWith decodeEquipment (m.enc ++ t) d).1 = .ok () ∧
    ∀ e ∈ m.readings, Val.look e.1 (decodeWith decodeEquipment (m.enc ++ t) d).2 = some e.2 := by
  obtain ⟨o, ws, hw, hh⟩ := trace_equipment (fun g => Val.look g d) m t
  exact decode_hits f .equipment rfl _ d hd ⟨_, _, ws, hw, fun e he => look_of_hit' (hh e he) d⟩

/-- A concrete message: arrays of lengths 0 to 5. -/
def sampleEquipment : Equipment :=
  { controllerType := 1, hardwareType := 2, unk2 := 3, unk3 := 4, controllerData := 5,
    version := ⟨[10, 20], by decide⟩, speed := ⟨[], by decide⟩, valve := ⟨[1, 2, 3, 4], by decide⟩,
    remote := ⟨[255], by decide⟩, sensor := ⟨[1, 2, 3, 4, 5], by decide⟩, delay := ⟨[9, 8, 7], by decide⟩,
    macros := ⟨[], by decide⟩, misc := ⟨[1], by decide⟩, light := ⟨[2], by decide⟩, flows := ⟨[3], by decide⟩,
    sgs := ⟨[4], by decide⟩, spaFlows := ⟨[5], by decide⟩ }

example : sampleEquipment.enc.take 20 = [1, 2, 3, 4, 5, 0, 0, 0, 2, 0, 0, 0, 10, 20, 0, 0, 0, 0, 0, 0] := by decide

example : Val.look [.s "equipment", .s "sensorDataArray"] (decodeWith decodeEquipment sampleEquipment.enc (.dict [])).2 =
    some (.list [.int 1, .int 2, .int 3, .int 4, .int 5]) := by
  have h := (C79_equipment (fun _ => .error .valueError) sampleEquipment [] (.dict []) .init).2
    ([.s "equipment", .s "sensorDataArray"], sampleEquipment.sensor.shown) (by simp [Equipment.readings])
  rw [List.append_nil] at h
  exact h

end SL
