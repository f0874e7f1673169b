import Verif.Model.Struct
import Verif.Model.Utility
/-! # Lemmas about little-endian packing and field reads -/
namespace SL

theorem length_leBytes (n v : Nat) : (leBytes n v).length = n := by
  induction n generalizing v with
  | zero => rfl
  | succ n ih => simp [leBytes, ih]

theorem leVal_leBytes (n v : Nat) : leVal (leBytes n v) = v % 256 ^ n := by
  induction n generalizing v with
  | zero => simp [leBytes, leVal, Nat.mod_one]
  | succ n ih =>
    simp only [leBytes, leVal, ih]
    have h : (UInt8.ofNat (v % 256)).toNat = v % 256 := by
      simp [UInt8.toNat_ofNat']
    rw [h, Nat.pow_succ, Nat.mul_comm (256 ^ n) 256, Nat.mod_mul]

theorem leVal_leBytes_of_lt {n v : Nat} (h : v < 256 ^ n) : leVal (leBytes n v) = v := by
  rw [leVal_leBytes, Nat.mod_eq_of_lt h]

theorem leVal_lt (bs : Bytes) : leVal bs < 256 ^ bs.length := by
  induction bs with
  | nil => simp [leVal]
  | cons b bs ih =>
    simp only [leVal, List.length_cons, Nat.pow_succ]
    have := b.toNat_lt
    omega

theorem leBytes_leVal (bs : Bytes) : leBytes bs.length (leVal bs) = bs := by
  induction bs with
  | nil => rfl
  | cons b bs ih =>
    simp only [List.length_cons, leBytes, leVal]
    have := b.toNat_lt
    rw [show (b.toNat + 256 * leVal bs) % 256 = b.toNat by omega,
      show (b.toNat + 256 * leVal bs) / 256 = leVal bs by omega, ih]
    simp

theorem leBytes_leVal' {n : Nat} {bs : Bytes} (h : bs.length = n) : leBytes n (leVal bs) = bs := by
  subst h; exact leBytes_leVal bs

theorem packU_ok {n : Nat} {v : Int} (h0 : 0 ≤ v) (h : v < 256 ^ n) :
    packU n v = .ok (leBytes n v.toNat) := by
  simp [packU, h0, h]

theorem packU_ok_nat {n v : Nat} (h : v < 256 ^ n) :
    packU n (v : Int) = .ok (leBytes n v) := by
  have : (v : Int) < 256 ^ n := by
    have := Int.ofNat_lt.mpr h; rwa [Int.natCast_pow] at this
  rw [packU_ok (by omega) this]; rfl

theorem packU_eq_ok {n : Nat} {v : Int} {bs : Bytes} :
    packU n v = .ok bs ↔ 0 ≤ v ∧ v < 256 ^ n ∧ bs = leBytes n v.toNat := by
  unfold packU
  split
  · rename_i h; simp [h, eq_comm]
  · rename_i h
    simp only [reduceCtorEq, false_iff]
    rintro ⟨a, b, -⟩; exact h ⟨a, b⟩

theorem unpackRaw_append (pre bs post : Bytes) {n off : Nat} (hn : bs.length = n)
    (ho : pre.length = off) : unpackRaw n (pre ++ (bs ++ post)) off = .ok bs := by
  subst hn ho
  unfold unpackRaw
  rw [if_pos (by simp)]
  simp

theorem Except_bind_ok {α β ε : Type} (a : α) (f : α → Except ε β) :
    (Except.ok a >>= f) = f a := rfl

theorem Except_bind_error {α β ε : Type} (e : ε) (f : α → Except ε β) :
    ((Except.error e : Except ε α) >>= f) = .error e := rfl

theorem Except_bind_eq_ok {α β ε : Type} {x : Except ε α} {f : α → Except ε β} {b : β} :
    (x >>= f) = .ok b ↔ ∃ a, x = .ok a ∧ f a = .ok b := by
  cases x with
  | error e => simp [Except_bind_error]
  | ok a => simp [Except_bind_ok]

theorem getSome_append (f : Fmt) (pre bs post : Bytes) {off : Nat} (hn : bs.length = f.size)
    (ho : pre.length = off) :
    getSome f (pre ++ (bs ++ post)) off = .ok (f.value bs, off + f.size) := by
  unfold getSome unpackFrom
  rw [unpackRaw_append pre bs post hn ho]; rfl

theorem unpackFrom_append (f : Fmt) (pre bs post : Bytes) {off : Nat} (hn : bs.length = f.size)
    (ho : pre.length = off) :
    unpackFrom f (pre ++ (bs ++ post)) off = .ok (f.value bs) := by
  unfold unpackFrom
  rw [unpackRaw_append pre bs post hn ho]; rfl

theorem getRaw_append (pre bs post : Bytes) {n off : Nat} (hn : bs.length = n)
    (ho : pre.length = off) :
    getRaw n (pre ++ (bs ++ post)) off = .ok (bs, off + n) := by
  unfold getRaw
  rw [unpackRaw_append pre bs post hn ho]; rfl

theorem unpackRaw_eq_ok {n off : Nat} {buff bs : Bytes} :
    unpackRaw n buff off = .ok bs ↔ off + n ≤ buff.length ∧ bs = (buff.drop off).take n := by
  unfold unpackRaw; split
  · simp_all [eq_comm]
  · simp; omega

theorem unpackRaw_error {n off : Nat} {buff : Bytes} {e : PyErr} (h : unpackRaw n buff off = .error e) :
    e = .structError := by
  unfold unpackRaw at h; split at h <;> simp_all

theorem unpackRaw_decomp {n off : Nat} {buff bs : Bytes} (h : unpackRaw n buff off = .ok bs) :
    ∃ pre post, buff = pre ++ (bs ++ post) ∧ pre.length = off ∧ bs.length = n := by
  rw [unpackRaw_eq_ok] at h
  obtain ⟨h1, rfl⟩ := h
  refine ⟨buff.take off, buff.drop (off + n), ?_, by simp; omega, by simp; omega⟩
  rw [← List.drop_drop, List.take_append_drop, List.take_append_drop]

theorem getSome_def (f : Fmt) (buff : Bytes) (off : Nat) :
    getSome f buff off = if off + f.size ≤ buff.length then
      .ok (f.value ((buff.drop off).take f.size), off + f.size) else .error .structError := by
  unfold getSome unpackFrom unpackRaw; split <;> rfl

theorem getRaw_def (n : Nat) (buff : Bytes) (off : Nat) :
    getRaw n buff off = if off + n ≤ buff.length then
      .ok ((buff.drop off).take n, off + n) else .error .structError := by
  unfold getRaw unpackRaw; split <;> rfl

theorem getSome_eq_ok {f : Fmt} {buff : Bytes} {off : Nat} {r : Int × Nat} :
    getSome f buff off = .ok r ↔
      off + f.size ≤ buff.length ∧ r = (f.value ((buff.drop off).take f.size), off + f.size) := by
  rw [getSome_def]; split <;> simp_all [eq_comm]; omega

theorem getSome_error {f : Fmt} {buff : Bytes} {off : Nat} {e : PyErr}
    (h : getSome f buff off = .error e) : e = .structError ∧ buff.length < off + f.size := by
  rw [getSome_def] at h; split at h <;> simp_all

theorem getRaw_eq_ok {n : Nat} {buff : Bytes} {off : Nat} {r : Bytes × Nat} :
    getRaw n buff off = .ok r ↔
      off + n ≤ buff.length ∧ r = ((buff.drop off).take n, off + n) := by
  rw [getRaw_def]; split <;> simp_all [eq_comm]; omega

theorem getRaw_error {n : Nat} {buff : Bytes} {off : Nat} {e : PyErr}
    (h : getRaw n buff off = .error e) : e = .structError ∧ buff.length < off + n := by
  rw [getRaw_def] at h; split at h <;> simp_all

end SL
