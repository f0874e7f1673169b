import Verif.Lemmas.Struct
import Verif.Spec.Wire
/-! # The independent wire layout agrees with `struct` packing -/
namespace SL
open Spec

theorem u16_eq (v : Nat) : u16 v = leBytes 2 v := by simp [u16, leBytes, byte]

theorem u32_eq (v : Nat) : u32 v = leBytes 4 v := by
  simp [u32, leBytes, byte, Nat.div_div_eq_div_mul]

@[simp] theorem length_u16 (v : Nat) : (u16 v).length = 2 := rfl
@[simp] theorem length_u32 (v : Nat) : (u32 v).length = 4 := rfl
@[simp] theorem length_s32 (v : Int) : (s32 v).length = 4 := rfl

theorem leVal_u16 {v : Nat} (h : v < 65536) : leVal (u16 v) = v := by
  rw [u16_eq, leVal_leBytes_of_lt (by simpa using h)]

theorem leVal_u32 {v : Nat} (h : v < 4294967296) : leVal (u32 v) = v := by
  rw [u32_eq, leVal_leBytes_of_lt (by simpa using h)]

theorem leVal_byte {v : Nat} (h : v < 256) : leVal [byte v] = v := by
  simp [leVal, byte]; omega

theorem value_s32 {v : Int} (h1 : -2147483648 ≤ v) (h2 : v < 2147483648) :
    Fmt.i.value (s32 v) = v := by
  unfold Fmt.value s32
  have hb : (v % 4294967296).toNat < 4294967296 := by omega
  simp only [leVal_u32 hb]
  split <;> omega

theorem pad4_eq (n : Nat) : padLen n = pad4 n := by
  unfold padLen pad4; simp only; split <;> omega

theorem frame_eq (id code : Nat) (d : Bytes) :
    frame id code d = leBytes 2 id ++ leBytes 2 code ++ leBytes 4 d.length ++ d := by
  unfold frame; rw [u16_eq, u16_eq, u32_eq]

theorem length_frame (id code : Nat) (d : Bytes) : (frame id code d).length = 8 + d.length := by
  simp [frame]; omega

end SL
