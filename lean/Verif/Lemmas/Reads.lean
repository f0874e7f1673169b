import Verif.Lemmas.Log
import Verif.Lemmas.Wire
import Verif.Spec.Messages
import Verif.Props.TextProps
import Verif.Props.TimeProps
import Verif.Model.Decode
/-! Reading encoded fields: one lemma per wire type, in the form used by symbolic execution. -/
namespace SL
open Spec
open Prog (rd rdString rdArray rdTime rdMsgString offset store setdefault lookup throw loop forRange)

theorem getSome_field (f : Fmt) (bs r : Bytes) (h : bs.length = f.size) :
    getSome f (bs ++ r) 0 = .ok (f.value bs, f.size) := by
  have := getSome_append f [] bs r (off := 0) h rfl
  simpa using this

section
variable {α β : Type} (env : Path → Option Val) (o : Nat) (r : Bytes)

theorem trace_field {f : Fmt} {bs : Bytes} {v : Int} (h : bs.length = f.size) (hv : f.value bs = v)
    (k : Int → Prog α) : trace env (rd f >>= k) o (bs ++ r) = trace env (k v) (o + f.size) r := by
  show trace env (.num f k) o (bs ++ r) = _
  simp only [trace, getSome_field f bs r h, onRead, hv, ← h, List.drop_left]

theorem tr_I (v : UInt32) (k : Int → Prog α) :
    trace env (rd .I >>= k) o (u32 v.toNat ++ r) = trace env (k v.toNat) (o + 4) r :=
  trace_field env o r rfl (by simp only [Fmt.value, leVal_u32 (UInt32.toNat_lt v)]) k

theorem tr_In {n : Nat} (h : n < 4294967296) (k : Int → Prog α) :
    trace env (rd .I >>= k) o (u32 n ++ r) = trace env (k n) (o + 4) r :=
  trace_field env o r rfl (by simp only [Fmt.value, leVal_u32 h]) k

theorem tr_i (v : Int32) (k : Int → Prog α) :
    trace env (rd .i >>= k) o (s32 v.toInt ++ r) = trace env (k v.toInt) (o + 4) r :=
  trace_field env o r rfl (value_s32 (Int32.le_toInt v) (Int32.toInt_lt v)) k

theorem tr_H (v : UInt16) (k : Int → Prog α) :
    trace env (rd .H >>= k) o (u16 v.toNat ++ r) = trace env (k v.toNat) (o + 2) r :=
  trace_field env o r rfl (by simp only [Fmt.value, leVal_u16 (UInt16.toNat_lt v)]) k

theorem tr_B (v : UInt8) (k : Int → Prog α) :
    trace env (rd .B >>= k) o ([v] ++ r) = trace env (k v.toNat) (o + 1) r :=
  trace_field env o r rfl (by simp [Fmt.value, leVal]) k

theorem tr_Bc (v : UInt8) (k : Int → Prog α) :
    trace env (rd .B >>= k) o (v :: r) = trace env (k v.toNat) (o + 1) r := tr_B env o r v k

theorem be16_eq (v : Nat) : (be16 v).reverse = u16 v := rfl
theorem be32_eq (v : Nat) : (be32 v).reverse = u32 v := rfl

theorem tr_beH (v : UInt16) (k : Int → Prog α) :
    trace env (rd .beH >>= k) o (be16 v.toNat ++ r) = trace env (k v.toNat) (o + 2) r :=
  trace_field env o r rfl (by simp only [Fmt.value, be16_eq, leVal_u16 (UInt16.toNat_lt v)]) k

theorem tr_beI (v : UInt32) (k : Int → Prog α) :
    trace env (rd .beI >>= k) o (be32 v.toNat ++ r) = trace env (k v.toNat) (o + 4) r :=
  trace_field env o r rfl (by simp only [Fmt.value, be32_eq, leVal_u32 (UInt32.toNat_lt v)]) k

theorem text_read (t : Text) (r : Bytes) : getString (t.enc ++ r) 0 = .ok (t.s, t.enc.length) := by
  have hb : textBytes false t.s.toList = t.s.toUTF8.data.toList := C04_utf8_standard t.s
  have hlen : (textBytes false t.s.toList).length < 2 ^ 31 := by
    rw [hb, Array.length_toList]
    exact t.short
  have hl := C04_text_layout t.s false hlen
  have := C05_get_string [] r false [] t.s.toList [] (by simp) (by simp) t.head t.last (by simpa using hlen)
    t.enc (by
      simp only [List.nil_append, List.append_nil, String.ofList_toList]
      rw [hl, hb]; rfl)
  simpa using this

theorem tr_str (t : Text) (k : String → Prog α) :
    trace env (rdString >>= k) o (t.enc ++ r) = trace env (k t.s) (o + t.enc.length) r := by
  show trace env (.str k) o (t.enc ++ r) = _
  simp only [trace, text_read, onRead, List.drop_left]

theorem tr_store (p : Path) (x : Val) (k : Unit → Prog α) :
    trace env (store p x >>= k) o r = logged (.set p x) (trace env (k ()) o r) := rfl
theorem tr_store' (p : Path) (x : Val) :
    trace env (store p x) o r = (.ok ((), o, r), [.set p x]) := rfl
theorem tr_setdefault (p : Path) (x : Val) (k : Unit → Prog α) :
    trace env (setdefault p x >>= k) o r = logged (.dflt p x) (trace env (k ()) o r) := rfl
theorem tr_offset (k : Nat → Prog α) : trace env (offset >>= k) o r = trace env (k o) o r := rfl
theorem tr_lookup (p : Path) (k : Option Val → Prog α) :
    trace env (lookup p >>= k) o r = trace env (k (env p)) o r := rfl
theorem tr_pure (a : α) : trace env (pure a) o r = (.ok (a, o, r), []) := rfl
theorem tr_pure_bind (a : α) (k : α → Prog β) : trace env (pure a >>= k) o r = trace env (k a) o r := rfl
theorem tr_seq (p : Prog α) (k : α → Prog β) :
    trace env (p >>= k) o r = (trace env p o r).andThen (fun a o r => trace env (k a) o r) := trace_bind env p k o r

theorem logged_ok {a : α} {o : Nat} {r : Bytes} {ws : List W} (w : W) :
    logged w ((.ok (a, o, r), ws) : TRes α) = (.ok (a, o, r), w :: ws) := rfl
theorem andThen_ok {a : α} {o : Nat} {r : Bytes} {ws : List W} (k : α → Nat → Bytes → TRes β) :
    TRes.andThen ((.ok (a, o, r), ws) : TRes α) k = ((k a o r).1, ws ++ (k a o r).2) := rfl
end

theorem prog_assoc {α β γ : Type} (p : Prog α) (f : α → Prog β) (g : β → Prog γ) :
    ((p >>= f) >>= g : Prog γ) = (p >>= fun a => f a >>= g) := by
  show (p.bind f).bind g = p.bind (fun a => (f a).bind g)
  induction p with
  | pure a => rfl
  | raise e => rfl
  | num q k ih => simp only [Prog.bind, ih]
  | str k ih => simp only [Prog.bind, ih]
  | arr k ih => simp only [Prog.bind, ih]
  | time k ih => simp only [Prog.bind, ih]
  | msgStr k ih => simp only [Prog.bind, ih]
  | off k ih => simp only [Prog.bind, ih]
  | set q x k ih => simp only [Prog.bind, ih]
  | setdef q x k ih => simp only [Prog.bind, ih]
  | get q k ih => simp only [Prog.bind, ih]

/-! ## Discipline of the primitive operations -/
section
variable {α β : Type} (E : List Path) (Q : List Path → α → Prop)
theorem disc_rd (f : Fmt) (k : Int → Prog α) : Disc (rd f >>= k) E Q = ∀ x, Disc (k x) E Q := rfl
theorem disc_rdString (k : String → Prog α) : Disc (rdString >>= k) E Q = ∀ x, Disc (k x) E Q := rfl
theorem disc_rdArray (k : List Int → Prog α) : Disc (rdArray >>= k) E Q = ∀ x, Disc (k x) E Q := rfl
theorem disc_rdTime (k : DateTime → Prog α) : Disc (rdTime >>= k) E Q = ∀ x, Disc (k x) E Q := rfl
theorem disc_rdMsgString (k : String → Prog α) : Disc (rdMsgString >>= k) E Q = ∀ x, Disc (k x) E Q := rfl
theorem disc_offset (k : Nat → Prog α) : Disc (offset >>= k) E Q = ∀ x, Disc (k x) E Q := rfl
theorem disc_store (p : Path) (x : Val) (k : Unit → Prog α) :
    Disc (store p x >>= k) E Q = (p ≠ [] ∧ p.dropLast ∈ E ∧ okSet p x ∧ Disc (k ()) E Q) := rfl
theorem disc_store' (p : Path) (x : Val) (Q : List Path → Unit → Prop) :
    Disc (store p x) E Q = (p ≠ [] ∧ p.dropLast ∈ E ∧ okSet p x ∧ Q E ()) := rfl
theorem disc_setdefault (p : Path) (x : Val) (k : Unit → Prog α) :
    Disc (setdefault p x >>= k) E Q =
      (p ≠ [] ∧ p.dropLast ∈ E ∧ okDef p x ∧ Disc (k ()) (if isNode p then p :: E else E) Q) := rfl
theorem disc_lookup (p : Path) (k : Option Val → Prog α) :
    Disc (lookup p >>= k) E Q = (okGet p ∧ ∀ v, Disc (k v) E Q) := rfl
theorem disc_pure (a : α) : Disc (pure a) E Q = Q E a := rfl
theorem disc_throw (e : PyErr) : Disc (throw e) E Q = True := rfl
end

/-! ## All operations of the primitives -/
section
variable {α β : Type} {P : Op → Prop}
theorem ops_rd (f : Fmt) (k : Int → Prog α) : AllOps P (rd f >>= k) = ∀ x, AllOps P (k x) := rfl
theorem ops_rdString (k : String → Prog α) : AllOps P (rdString >>= k) = ∀ x, AllOps P (k x) := rfl
theorem ops_rdArray (k : List Int → Prog α) : AllOps P (rdArray >>= k) = (P .arr ∧ ∀ x, AllOps P (k x)) := rfl
theorem ops_rdTime (k : DateTime → Prog α) : AllOps P (rdTime >>= k) = ∀ x, AllOps P (k x) := rfl
theorem ops_rdMsgString (k : String → Prog α) : AllOps P (rdMsgString >>= k) = (P .msgStr ∧ ∀ x, AllOps P (k x)) := rfl
theorem ops_offset (k : Nat → Prog α) : AllOps P (offset >>= k) = ∀ x, AllOps P (k x) := rfl
theorem ops_store (p : Path) (x : Val) (k : Unit → Prog α) :
    AllOps P (store p x >>= k) = (P (.set p x) ∧ AllOps P (k ())) := rfl
theorem ops_store' (p : Path) (x : Val) : AllOps P (store p x) = (P (.set p x) ∧ True) := rfl
theorem ops_setdefault (p : Path) (x : Val) (k : Unit → Prog α) :
    AllOps P (setdefault p x >>= k) = (P (.setdef p x) ∧ AllOps P (k ())) := rfl
theorem ops_lookup (p : Path) (k : Option Val → Prog α) :
    AllOps P (lookup p >>= k) = (P (.get p) ∧ ∀ v, AllOps P (k v)) := rfl
theorem ops_pure (a : α) : AllOps P (pure a) = True := rfl
theorem ops_throw (e : PyErr) : AllOps P (throw (α := α) e) = True := rfl
end

/-! ## Bits -/

theorem and_two_pow_zero (v n : Nat) : v &&& 2 ^ n = 0 ↔ v.testBit n = false := by
  constructor
  · intro h
    have : (v &&& 2 ^ n).testBit n = false := by rw [h]; simp
    rwa [Nat.testBit_and, Nat.testBit_two_pow_self, Bool.and_true] at this
  · intro h
    apply Nat.eq_of_testBit_eq
    intro i
    rw [Nat.testBit_and, Nat.testBit_two_pow]
    by_cases hi : n = i
    · subst hi; simp [h]
    · simp [hi]

theorem onOff_bit (v n : Nat) : onOff (v : Int) (2 ^ n) = bit v n := by
  unfold onOff bit
  simp only [Int.toNat_natCast, ne_eq, and_two_pow_zero, Bool.not_eq_false]

end SL
