import Verif.Model.Prog
import Verif.Lemmas.Val
import Verif.Lemmas.Struct
/-! General facts about decoder programs, by induction over programs. -/
namespace SL
open Prog

/-! ## Extending the buffer -/

theorem unpackRaw_mono (n : Nat) (buff t : Bytes) (o : Nat) :
    unpackRaw n buff o = .error .structError ∨ unpackRaw n (buff ++ t) o = unpackRaw n buff o := by
  unfold unpackRaw
  by_cases h : o + n ≤ buff.length
  · right
    rw [if_pos h, if_pos (by simp; omega)]
    rw [List.drop_append_of_le_length (by omega), List.take_append_of_le_length (by simp; omega)]
  · left; rw [if_neg h]

/-- Combine two monotone steps. -/
theorem mono_bind {α β : Type} {x x' : Except PyErr α} {f f' : α → Except PyErr β}
    (h : x = .error .structError ∨ x' = x)
    (hf : ∀ a, f a = .error .structError ∨ f' a = f a) :
    (x >>= f) = .error .structError ∨ (x' >>= f') = (x >>= f) := by
  rcases h with h | h
  · left; rw [h]; rfl
  · rw [h]
    cases x with
    | error e => exact .inr rfl
    | ok a => exact hf a

theorem unpackFrom_mono (f : Fmt) (buff t : Bytes) (o : Nat) :
    unpackFrom f buff o = .error .structError ∨ unpackFrom f (buff ++ t) o = unpackFrom f buff o :=
  mono_bind (unpackRaw_mono f.size buff t o) (fun _ => .inr rfl)

theorem getSome_mono (f : Fmt) (buff t : Bytes) (o : Nat) :
    getSome f buff o = .error .structError ∨ getSome f (buff ++ t) o = getSome f buff o :=
  mono_bind (unpackFrom_mono f buff t o) (fun _ => .inr rfl)

theorem getString_mono (buff t : Bytes) (o : Nat) :
    getString buff o = .error .structError ∨ getString (buff ++ t) o = getString buff o :=
  mono_bind (unpackFrom_mono .I buff t o) (fun _ =>
    mono_bind (unpackRaw_mono _ buff t _) (fun _ => .inr rfl))

theorem getTime_mono (buff t : Bytes) (o : Nat) :
    getTime buff o = .error .structError ∨ getTime (buff ++ t) o = getTime buff o :=
  mono_bind (unpackRaw_mono 16 buff t o) (fun _ => .inr rfl)

theorem getArrayItems_mono (buff t : Bytes) (a n : Nat) :
    getArrayItems buff a n = .error .structError ∨ getArrayItems (buff ++ t) a n = getArrayItems buff a n := by
  induction n with
  | zero => exact .inr rfl
  | succ n ih =>
    simp only [getArrayItems]
    exact mono_bind ih (fun _ => mono_bind (getSome_mono .B buff t _) (fun _ => .inr rfl))

theorem getArray_mono (buff t : Bytes) (o : Nat) :
    getArray buff o = .error .structError ∨ getArray (buff ++ t) o = getArray buff o :=
  mono_bind (getSome_mono .I buff t o) (fun _ =>
    mono_bind (getArrayItems_mono buff t _ _) (fun _ => .inr rfl))

theorem decodeMessageString_mono (buff t : Bytes) :
    decodeMessageString buff = .error .structError ∨ decodeMessageString (buff ++ t) = decodeMessageString buff :=
  mono_bind (unpackFrom_mono .I buff t 0) (fun _ =>
    mono_bind (unpackRaw_mono _ buff t _) (fun _ => .inr rfl))

theorem andThen_mono {α γ : Type} {x x' : Except PyErr (γ × Nat)} {d : Val} {k k' : γ → Nat → Res α}
    (h : x = .error .structError ∨ x' = x)
    (hk : ∀ a o, (k a o).1 = .error .structError ∨ k' a o = k a o) :
    (andThen x d k).1 = .error .structError ∨ andThen x' d k' = andThen x d k := by
  rcases h with h | h
  · left; rw [h]; rfl
  · rw [h]
    cases x with
    | error e => exact .inr rfl
    | ok r => exact hk r.1 r.2

/-- Unless it runs out of bytes, a decoder behaves the same on any extension of the buffer. -/
theorem run_mono {α : Type} (p : Prog α) (buff t : Bytes) (o : Nat) (d : Val) :
    (p.run buff o d).1 = .error .structError ∨ p.run (buff ++ t) o d = p.run buff o d := by
  induction p generalizing o d with
  | pure a => exact .inr rfl
  | raise e => exact .inr rfl
  | num f k ih => exact andThen_mono (getSome_mono f buff t o) (fun a o => ih a o d)
  | str k ih => exact andThen_mono (getString_mono buff t o) (fun a o => ih a o d)
  | arr k ih => exact andThen_mono (getArray_mono buff t o) (fun a o => ih a o d)
  | time k ih => exact andThen_mono (getTime_mono buff t o) (fun a o => ih a o d)
  | msgStr k ih =>
    simp only [run]
    rcases decodeMessageString_mono buff t with h | h
    · left; rw [h]
    · rw [h]
      cases hx : decodeMessageString buff with
      | error e => exact .inr rfl
      | ok x => exact ih x o d
  | off k ih => exact ih o o d
  | set p x k ih =>
    simp only [run]
    split
    · exact ih o _
    · exact .inr rfl
  | setdef p x k ih =>
    simp only [run]
    split
    · exact ih o _
    · exact .inr rfl
  | get p k ih =>
    simp only [run]
    split
    · exact ih _ o d
    · exact .inr rfl

/-! ## What a program does to the data, operation by operation -/

/-- The operations of a program that touch the data (and `getArray`, whose padding is not checked). -/
inductive Op
  | set (p : Path) (x : Val)
  | setdef (p : Path) (x : Val)
  | get (p : Path)
  | arr
  | msgStr

/-- Every operation the program can ever perform satisfies `P`. -/
def AllOps {α : Type} (P : Op → Prop) : Prog α → Prop
  | .pure _ => True
  | .raise _ => True
  | .num _ k => ∀ x, AllOps P (k x)
  | .str k => ∀ x, AllOps P (k x)
  | .arr k => P .arr ∧ ∀ x, AllOps P (k x)
  | .time k => ∀ x, AllOps P (k x)
  | .msgStr k => P .msgStr ∧ ∀ x, AllOps P (k x)
  | .off k => ∀ x, AllOps P (k x)
  | .set p x k => P (.set p x) ∧ AllOps P k
  | .setdef p x k => P (.setdef p x) ∧ AllOps P k
  | .get p k => P (.get p) ∧ ∀ v, AllOps P (k v)

theorem allOps_bind {α β : Type} {P : Op → Prop} {p : Prog α} {k : α → Prog β} (hp : AllOps P p)
    (hk : ∀ a, AllOps P (k a)) : AllOps P (p.bind k) := by
  induction p with
  | pure a => exact hk a
  | raise e => trivial
  | num f k' ih => exact fun x => ih x (hp x)
  | str k' ih => exact fun x => ih x (hp x)
  | time k' ih => exact fun x => ih x (hp x)
  | off k' ih => exact fun x => ih x (hp x)
  | arr k' ih => exact ⟨hp.1, fun x => ih x (hp.2 x)⟩
  | msgStr k' ih => exact ⟨hp.1, fun x => ih x (hp.2 x)⟩
  | set q x k' ih => exact ⟨hp.1, ih hp.2⟩
  | setdef q x k' ih => exact ⟨hp.1, ih hp.2⟩
  | get q k' ih => exact ⟨hp.1, fun x => ih x (hp.2 x)⟩

theorem allOps_loop {σ : Type} {P : Op → Prop} {body : Nat → σ → Prog σ} (h : ∀ i s, AllOps P (body i s)) :
    ∀ n i s, AllOps P (loop body n i s)
  | 0, _, _ => trivial
  | n + 1, i, s => allOps_bind (h i s) (fun s => allOps_loop h n (i + 1) s)

theorem allOps_mono {α : Type} {P Q : Op → Prop} (h : ∀ op, P op → Q op) {p : Prog α} (hp : AllOps P p) :
    AllOps Q p := by
  induction p with
  | pure a => trivial
  | raise e => trivial
  | num f k' ih => exact fun x => ih x (hp x)
  | str k' ih => exact fun x => ih x (hp x)
  | time k' ih => exact fun x => ih x (hp x)
  | off k' ih => exact fun x => ih x (hp x)
  | arr k' ih => exact ⟨h _ hp.1, fun x => ih x (hp.2 x)⟩
  | msgStr k' ih => exact ⟨h _ hp.1, fun x => ih x (hp.2 x)⟩
  | set q x k' ih => exact ⟨h _ hp.1, ih hp.2⟩
  | setdef q x k' ih => exact ⟨h _ hp.1, ih hp.2⟩
  | get q k' ih => exact ⟨h _ hp.1, fun x => ih x (hp.2 x)⟩

theorem andThen_snd {α γ : Type} {Q : Val → Prop} {x : Except PyErr (γ × Nat)} {d : Val} {k : γ → Nat → Res α}
    (hd : Q d) (hk : ∀ a o, Q (k a o).2) : Q (andThen x d k).2 := by
  cases x with
  | error e => exact hd
  | ok r => exact hk r.1 r.2

/-- A relation between the data before and after that every store satisfies holds for the whole run,
also if it ends with an exception. -/
theorem run_rel {α : Type} {P : Op → Prop} {R : Val → Val → Prop} (hrefl : ∀ d, R d d)
    (htrans : ∀ a b c, R a b → R b c → R a c)
    (hset : ∀ p x d, P (.set p x) → R d (Val.put p x d)) (hdef : ∀ p x d, P (.setdef p x) → R d (Val.putNew p x d))
    {p : Prog α} (hp : AllOps P p) (buff : Bytes) (o : Nat) (d : Val) : R d (p.run buff o d).2 := by
  induction p generalizing o d with
  | pure a => exact hrefl d
  | raise e => exact hrefl d
  | num f k ih => exact andThen_snd (hrefl d) (fun a o => ih a (hp a) o d)
  | str k ih => exact andThen_snd (hrefl d) (fun a o => ih a (hp a) o d)
  | arr k ih => exact andThen_snd (hrefl d) (fun a o => ih a (hp.2 a) o d)
  | time k ih => exact andThen_snd (hrefl d) (fun a o => ih a (hp a) o d)
  | msgStr k ih =>
    simp only [run]
    split
    · exact ih _ (hp.2 _) o d
    · exact hrefl d
  | off k ih => exact ih o (hp o) o d
  | set p x k ih =>
    simp only [run]
    split
    · exact htrans _ _ _ (hset p x d hp.1) (ih hp.2 o _)
    · exact hrefl d
  | setdef p x k ih =>
    simp only [run]
    split
    · exact htrans _ _ _ (hdef p x d hp.1) (ih hp.2 o _)
    · exact hrefl d
  | get p k ih =>
    simp only [run]
    split
    · exact ih _ (hp.2 _) o d
    · exact hrefl d

/-- Stores only under the top-level keys `S`. -/
def Within (S : List String) : Op → Prop
  | .set p _ | .setdef p _ => ∃ k ∈ S, ∃ r, p = .s k :: r
  | _ => True

/-- A decoder whose stores are all under the keys `S` leaves every other top-level entry alone. -/
theorem run_frame {α : Type} {S : List String} {p : Prog α} (hp : AllOps (Within S) p) (buff : Bytes) (o : Nat)
    (d : Val) (k : Key) (hk : ∀ s ∈ S, k ≠ .s s) : Val.look [k] (p.run buff o d).2 = Val.look [k] d := by
  have hne : ∀ q : Path, (∃ s ∈ S, ∃ r, q = Key.s s :: r) → ¬ q <+: [k] ∧ ¬ [k] <+: q := by
    rintro q ⟨s, hs, r, rfl⟩
    have := hk s hs
    constructor
    · rw [List.cons_prefix_cons]; rintro ⟨h, -⟩; exact this h.symm
    · rw [List.cons_prefix_cons]; rintro ⟨h, -⟩; exact this h
  refine run_rel (R := fun a b => Val.look [k] b = Val.look [k] a) (fun _ => rfl)
    (fun a b c h1 h2 => by rw [h2, h1]) ?_ ?_ hp buff o d
  · intro p x d h; obtain ⟨h1, h2⟩ := hne p h; exact look_put_other x d h1 h2
  · intro p x d h; obtain ⟨h1, h2⟩ := hne p h; exact look_putNew_other x d h1 h2

/-! ## Bounds: without arrays, a program that succeeds has stayed inside the buffer -/

/-- No `getArray`. -/
def NoArr : Op → Prop
  | .arr => False
  | _ => True

theorem getString_bound {buff : Bytes} {o : Nat} {r : String × Nat} (h : getString buff o = .ok r) :
    r.2 ≤ buff.length := by
  unfold getString at h
  rw [Except_bind_eq_ok] at h
  obtain ⟨v, -, h⟩ := h
  simp only at h
  rw [Except_bind_eq_ok] at h
  obtain ⟨raw, hraw, h⟩ := h
  rw [Except_bind_eq_ok] at h
  obtain ⟨s, -, h⟩ := h
  simp only [Pure.pure, Except.pure, Except.ok.injEq] at h
  subst h
  have := (unpackRaw_eq_ok.1 hraw).1
  simpa using this

theorem getTime_bound {buff : Bytes} {o : Nat} {r : DateTime × Nat} (h : getTime buff o = .ok r) :
    r.2 ≤ buff.length := by
  unfold getTime at h
  rw [Except_bind_eq_ok] at h
  obtain ⟨raw, hraw, h⟩ := h
  rw [Except_bind_eq_ok] at h
  obtain ⟨s, -, h⟩ := h
  simp only [Pure.pure, Except.pure, Except.ok.injEq] at h
  subst h
  have := (unpackRaw_eq_ok.1 hraw).1
  simpa using this

theorem getSome_bound {f : Fmt} {buff : Bytes} {o : Nat} {r : Int × Nat} (h : getSome f buff o = .ok r) :
    r.2 ≤ buff.length := by
  unfold getSome unpackFrom at h
  rw [Except_bind_eq_ok] at h
  obtain ⟨v, hv, h⟩ := h
  rw [Except_bind_eq_ok] at hv
  obtain ⟨raw, hraw, -⟩ := hv
  simp only [Pure.pure, Except.pure, Except.ok.injEq] at h
  subst h
  have := (unpackRaw_eq_ok.1 hraw).1
  simpa using this

theorem run_bound {α : Type} {p : Prog α} (hp : AllOps NoArr p) (buff : Bytes) (o : Nat) (d : Val)
    (ho : o ≤ buff.length) {a : α} {o' : Nat} (h : (p.run buff o d).1 = .ok (a, o')) : o' ≤ buff.length := by
  have hat : ∀ {γ : Type} {x : Except PyErr (γ × Nat)} {d : Val} {k : γ → Nat → Res α},
      (andThen x d k).1 = .ok (a, o') → ∃ r, x = .ok r ∧ (k r.1 r.2).1 = .ok (a, o') := by
    intro γ x d k h
    cases x with
    | error e => simp [andThen] at h
    | ok r => exact ⟨r, rfl, h⟩
  induction p generalizing o d with
  | pure a => simp only [run, Except.ok.injEq, Prod.mk.injEq] at h; omega
  | raise e => simp [run] at h
  | num f k ih =>
    obtain ⟨r, hr, h⟩ := hat h
    exact ih r.1 (hp r.1) r.2 d (getSome_bound hr) h
  | str k ih =>
    obtain ⟨r, hr, h⟩ := hat h
    exact ih r.1 (hp r.1) r.2 d (getString_bound hr) h
  | arr k ih => exact absurd hp.1 (by simp [NoArr])
  | time k ih =>
    obtain ⟨r, hr, h⟩ := hat h
    exact ih r.1 (hp r.1) r.2 d (getTime_bound hr) h
  | msgStr k ih =>
    simp only [run] at h
    split at h
    · exact ih _ (hp.2 _) o d ho h
    · simp at h
  | off k ih => exact ih o (hp o) o d ho h
  | set p x k ih =>
    simp only [run] at h
    split at h
    · exact ih hp.2 o _ ho h
    · simp at h
  | setdef p x k ih =>
    simp only [run] at h
    split at h
    · exact ih hp.2 o _ ho h
    · simp at h
  | get p k ih =>
    simp only [run] at h
    split at h
    · exact ih _ (hp.2 _) o d ho h
    · simp at h

/-- A decoder without arrays that accepts a buffer and uses more than the first `n` bytes of it rejects
those first bytes alone with `struct.error`. -/
theorem run_truncated {α : Type} {p : Prog α} (hp : AllOps NoArr p) (s t : Bytes) (d : Val) {a : α} {o' : Nat}
    (h : (p.run (s ++ t) 0 d).1 = .ok (a, o')) (hlt : s.length < o') :
    (p.run s 0 d).1 = .error .structError := by
  rcases run_mono p s t 0 d with h1 | h1
  · exact h1
  · rw [h1] at h
    have := run_bound hp s 0 d (Nat.zero_le _) h
    omega

end SL
