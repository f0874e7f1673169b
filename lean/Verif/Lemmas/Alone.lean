import Verif.Lemmas.Idem
/-!
# A message that can be read into some data can be read into an empty dict

`Trails R p q`: wherever `p` succeeds, on any data, `q` succeeds on its own, when every `.get` finds nothing; with results
related by `R`.
-/
set_option linter.unusedVariables false

namespace SL
open Prog (rd rdString rdArray rdTime rdMsgString offset store setdefault lookup throw loop forRange run andThen)

/-- The same reads; the stores may differ in what they store; `p` may store or raise more. -/
inductive Trails {α : Type} (R : α → α → Prop) : Prog α → Prog α → Prop
  | pure {a b : α} (h : R a b) : Trails R (.pure a) (.pure b)
  | raise (e : PyErr) (q : Prog α) : Trails R (.raise e) q
  | num (f : Fmt) {k k' : Int → Prog α} (h : ∀ x, Trails R (k x) (k' x)) : Trails R (.num f k) (.num f k')
  | str {k k' : String → Prog α} (h : ∀ x, Trails R (k x) (k' x)) : Trails R (.str k) (.str k')
  | arr {k k' : List Int → Prog α} (h : ∀ x, Trails R (k x) (k' x)) : Trails R (.arr k) (.arr k')
  | time {k k' : DateTime → Prog α} (h : ∀ x, Trails R (k x) (k' x)) : Trails R (.time k) (.time k')
  | off {k k' : Nat → Prog α} (h : ∀ x, Trails R (k x) (k' x)) : Trails R (.off k) (.off k')
  | set (p : Path) (x x' : Val) {k k' : Prog α} (h : Trails R k k') : Trails R (.set p x k) (.set p x' k')
  | extra (p : Path) (x : Val) {k k' : Prog α} (h : Trails R k k') : Trails R (.set p x k) k'
  | setdef (p : Path) (x x' : Val) {k k' : Prog α} (h : Trails R k k') : Trails R (.setdef p x k) (.setdef p x' k')
  | get (p : Path) {k k' : Option Val → Prog α} (h : ∀ v, Trails R (k v) (k' none)) : Trails R (.get p k) (.get p k')

section
variable {α β : Type} {R : α → α → Prop} {S : β → β → Prop}

theorem trails_bind {p q : Prog α} {k k' : α → Prog β} (h : Trails R p q) (hk : ∀ a b, R a b → Trails S (k a) (k' b)) :
    Trails S (p.bind k) (q.bind k') := by
  induction h with
  | pure h => exact hk _ _ h
  | raise e q => exact .raise e _
  | num f h ih => exact .num f ih
  | str h ih => exact .str ih
  | arr h ih => exact .arr ih
  | time h ih => exact .time ih
  | off h ih => exact .off ih
  | set p x x' h ih => exact .set p x x' ih
  | extra p x h ih => exact .extra p x ih
  | setdef p x x' h ih => exact .setdef p x x' ih
  | get p h ih => exact .get p ih

/-- Where `p` succeeds, `q` does. -/
theorem trails_run {p q : Prog α} (h : Trails R p q) (buff : Bytes) : ∀ (o : Nat) (d : Val) (a : α) (o' : Nat),
    (p.run buff o d).1 = .ok (a, o') → ∃ b, (trace (fun _ => none) q o (buff.drop o)).1 = .ok (b, o', buff.drop o') ∧ R a b := by
  have read : ∀ {γ : Type} (x : Except PyErr (γ × Nat)) (o : Nat) (d : Val) (k : γ → Nat → Prog.Res α) (k' : γ → Nat → Bytes → TRes α) (a : α) (o' : Nat),
      (∀ c n, (k c (o + n)).1 = .ok (a, o') → ∃ b, (k' c (o + n) (buff.drop (o + n))).1 = .ok (b, o', buff.drop o') ∧ R a b) →
      (andThen (shift o x) d k).1 = .ok (a, o') → ∃ b, (onRead x o (buff.drop o) k').1 = .ok (b, o', buff.drop o') ∧ R a b := by
    intro γ x o d k k' a o' hk h
    cases x with
    | error e => cases h
    | ok r =>
      simp only [shift, Except.map, andThen] at h
      simp only [onRead, List.drop_drop]
      exact hk _ _ h
  induction h with
  | pure h =>
    intro o d a o' he
    simp only [run, Except.ok.injEq, Prod.mk.injEq] at he
    obtain ⟨rfl, rfl⟩ := he
    exact ⟨_, rfl, h⟩
  | raise e q => intro o d a o' he; cases he
  | num f h ih =>
    intro o d a o' he
    simp only [run, trace] at he ⊢
    rw [getSome_drop f buff o] at he
    exact read _ o d _ _ a o' (fun c n h => ih c (o + n) d a o' h) he
  | str h ih =>
    intro o d a o' he
    simp only [run, trace] at he ⊢
    rw [getString_drop buff o] at he
    exact read _ o d _ _ a o' (fun c n h => ih c (o + n) d a o' h) he
  | arr h ih =>
    intro o d a o' he
    simp only [run, trace] at he ⊢
    rw [getArray_drop buff o] at he
    exact read _ o d _ _ a o' (fun c n h => ih c (o + n) d a o' h) he
  | time h ih =>
    intro o d a o' he
    simp only [run, trace] at he ⊢
    rw [getTime_drop buff o] at he
    exact read _ o d _ _ a o' (fun c n h => ih c (o + n) d a o' h) he
  | off h ih =>
    intro o d a o' he
    exact ih o o d a o' he
  | set p x x' h ih =>
    intro o d a o' he
    simp only [run] at he
    split at he
    · exact ih o _ a o' he
    · cases he
  | extra p x h ih =>
    intro o d a o' he
    simp only [run] at he
    split at he
    · exact ih o _ a o' he
    · cases he
  | setdef p x x' h ih =>
    intro o d a o' he
    simp only [run] at he
    split at he
    · exact ih o _ a o' he
    · cases he
  | get p h ih =>
    intro o d a o' he
    simp only [run] at he
    split at he
    · exact ih _ o d a o' he
    · cases he

theorem fo_rd {f : Fmt} {k k' : Int → Prog β} (h : ∀ x, Trails S (k x) (k' x)) : Trails S (rd f >>= k) (rd f >>= k') := .num f h
theorem fo_rdString {k k' : String → Prog β} (h : ∀ x, Trails S (k x) (k' x)) : Trails S (rdString >>= k) (rdString >>= k') := .str h
theorem fo_rdArray {k k' : List Int → Prog β} (h : ∀ x, Trails S (k x) (k' x)) : Trails S (rdArray >>= k) (rdArray >>= k') := .arr h
theorem fo_rdTime {k k' : DateTime → Prog β} (h : ∀ x, Trails S (k x) (k' x)) : Trails S (rdTime >>= k) (rdTime >>= k') := .time h
theorem fo_offset {k k' : Nat → Prog β} (h : ∀ x, Trails S (k x) (k' x)) : Trails S (offset >>= k) (offset >>= k') := .off h
theorem fo_store {p : Path} {x x' : Val} {k k' : Unit → Prog β} (h : Trails S (k ()) (k' ())) : Trails S (store p x >>= k) (store p x' >>= k') := .set p x x' h
theorem fo_store' {S : Unit → Unit → Prop} {p : Path} {x x' : Val} (h : S () ()) : Trails S (store p x) (store p x') := .set p x x' (.pure h)
theorem fo_setdefault {p : Path} {x x' : Val} {k k' : Unit → Prog β} (h : Trails S (k ()) (k' ())) :
    Trails S (setdefault p x >>= k) (setdefault p x' >>= k') := .setdef p x x' h
theorem fo_lookup {p : Path} {k k' : Option Val → Prog β} (h : ∀ v, Trails S (k v) (k' none)) : Trails S (lookup p >>= k) (lookup p >>= k') := .get p h
theorem fo_pure {a b : β} (h : S a b) : Trails S (pure a) (pure b) := .pure h
theorem fo_bind {p q : Prog α} {k k' : α → Prog β} (h : Trails R p q) (hk : ∀ a b, R a b → Trails S (k a) (k' b)) :
    Trails S (p >>= k) (q >>= k') := trails_bind h hk
theorem fo_loop {body body' : Nat → α → Prog α} (h : ∀ i a b, R a b → Trails R (body i a) (body' i b)) : ∀ (n i : Nat) (a b : α), R a b →
    Trails R (loop body n i a) (loop body' n i b)
  | 0, i, a, b, hab => .pure hab
  | n + 1, i, a, b, hab => trails_bind (h i a b hab) (fun a b hab => fo_loop h n (i + 1) a b hab)
theorem fo_forRange {body body' : Nat → Prog Unit} (h : ∀ i, Trails (fun _ _ => True) (body i) (body' i)) (n : Nat) :
    Trails (fun _ _ => True) (forRange n body) (forRange n body') := fo_loop (fun i _ _ _ => h i) n 0 () () trivial

end

/-- One step of such a proof. -/
macro "fo_step" : tactic =>
  `(tactic| first
    | (refine fo_rd (fun _ => ?_))
    | (refine fo_rdString (fun _ => ?_))
    | (refine fo_rdArray (fun _ => ?_))
    | (refine fo_rdTime (fun _ => ?_))
    | (refine fo_offset (fun _ => ?_))
    | (refine fo_store ?_)
    | exact fo_store' trivial
    | (refine fo_setdefault ?_)
    | exact fo_pure trivial)

/-- Any two values. -/
abbrev Whatever {α : Type} : α → α → Prop := fun _ _ => True

theorem trails_scg : Trails Whatever decodeScg decodeScg := by unfold decodeScg; repeat fo_step
theorem trails_dateTime (now now' : Rat) : Trails Whatever (decodeDateTime now) (decodeDateTime now') := by unfold decodeDateTime; repeat fo_step
theorem trails_unit : Trails Whatever getTemperatureUnit getTemperatureUnit := by
  unfold getTemperatureUnit
  refine fo_lookup (fun v => ?_)
  cases v <;> exact fo_pure trivial

theorem trails_chemistry : Trails Whatever decodeChemistry decodeChemistry := by
  unfold decodeChemistry
  refine fo_bind (R := Whatever) (by unfold decodeChemistryA; repeat fo_step) (fun _ _ _ => ?_)
  refine fo_bind (R := Whatever) (by unfold decodeChemistryB; (repeat fo_step); refine fo_bind trails_unit (fun _ _ _ => ?_); repeat fo_step) (fun _ _ _ => ?_)
  refine fo_bind (R := Whatever) (by unfold decodeChemistryC; repeat fo_step) (fun _ _ _ => ?_)
  unfold decodeChemistryD
  repeat fo_step

theorem trails_subscript {β : Type} {S : β → β → Prop} {v : Val} {k : Key} {c : Val → Prog β} {q : Prog β} (h : ∀ x, Trails S (c x) q) :
    Trails S (subscript v k >>= c) q := by
  unfold subscript
  split
  · split
    · exact h _
    · exact .raise _ _
  · exact .raise _ _

theorem trails_copySetpoints (i : Int) (o : Option Val) (t : Int) : Trails Whatever (copySetpoints i o t) (copySetpoints i none t) := by
  show Trails Whatever _ (.pure ())
  unfold copySetpoints
  split
  · split
    · split
      · refine trails_subscript (fun lo => .extra _ _ ?_)
        exact trails_subscript (fun hi => .extra _ _ (.pure trivial))
      · exact .pure trivial
    · exact .pure trivial
  · split
    · exact .raise _ _
    · exact .pure trivial
  · exact .pure trivial

theorem trails_body (u u' : String) (v : Option Val) (i : Nat) : Trails Whatever (decodeBody u v i) (decodeBody u' none i) := by
  unfold decodeBody
  fo_step; fo_step; fo_step
  refine fo_bind (trails_copySetpoints _ _ _) (fun _ _ _ => ?_)
  repeat fo_step

theorem trails_status : Trails Whatever decodeStatus decodeStatus := by
  unfold decodeStatus
  refine fo_bind (R := Whatever) ?_ (fun u u' _ => ?_)
  · unfold decodeStatusHead
    repeat fo_step
    refine fo_bind trails_unit (fun _ _ _ => ?_)
    repeat fo_step
  fo_step
  refine fo_lookup (fun v => ?_)
  fo_step
  refine fo_bind (fo_forRange (fun i => trails_body u u' v i) _) (fun _ _ _ => ?_)
  fo_step; fo_step
  refine fo_bind (fo_forRange (fun i => by unfold decodeStatusCircuit; repeat fo_step) _) (fun _ _ _ => ?_)
  unfold decodeStatusTail
  repeat fo_step

theorem trails_config : Trails Whatever decodeConfig decodeConfig := by
  unfold decodeConfig
  refine fo_bind (R := Whatever) ?_ (fun _ _ _ => ?_)
  · unfold decodeConfigHead
    fo_step; fo_step; fo_step; fo_step; fo_step
    refine fo_bind (fo_forRange (fun i => by unfold decodeSetpoints; repeat fo_step) _) (fun _ _ _ => ?_)
    repeat fo_step
    refine fo_lookup (fun v => ?_)
    refine fo_bind (R := Whatever) ?_ (fun _ _ _ => ?_)
    · show Trails Whatever _ (.pure _)
      unfold maskFlags
      split <;> first | exact .pure trivial | exact .raise _ _
    repeat fo_step
  fo_step; fo_step; fo_step
  refine fo_bind (fo_forRange (fun i => by unfold decodeConfigCircuit; repeat fo_step) _) (fun _ _ _ => ?_)
  fo_step; fo_step
  refine fo_bind (fo_loop (R := Whatever) (fun i a b _ => by unfold decodeColor; repeat fo_step) _ _ _ _ trivial) (fun _ _ _ => ?_)
  fo_step; fo_step
  refine fo_bind (fo_forRange (fun i => by unfold decodePumpData; repeat fo_step) _) (fun _ _ _ => ?_)
  repeat fo_step

theorem trails_nameFromCircuits (dev : Int) (n n' : String) : ∀ kv : List (Key × Val), Trails Whatever (nameFromCircuits dev kv n) (.pure n')
  | [] => .pure trivial
  | a :: rest => by
    unfold nameFromCircuits
    refine trails_subscript (fun d => ?_)
    split
    · refine trails_subscript (fun x => ?_)
      cases x <;> first | exact .pure trivial | exact .raise _ _
    · exact trails_nameFromCircuits dev n n' rest

theorem trails_pump (pump : Int) : Trails Whatever (decodePump pump) (decodePump pump) := by
  unfold decodePump
  fo_step; fo_step; fo_step; fo_step; fo_step; fo_step
  refine fo_bind (R := Whatever) (by unfold setPumpState; split <;> repeat fo_step) (fun _ _ _ => ?_)
  repeat fo_step
  refine fo_bind (fo_loop (R := Whatever) (fun i a b _ => ?_) _ _ _ _ trivial) (fun _ _ _ => ?_)
  · unfold decodePreset
    fo_step; fo_step; fo_step
    refine fo_lookup (fun v => ?_)
    refine fo_bind (R := Whatever) ?_ (fun _ _ _ => ?_)
    · show Trails Whatever _ (.pure b)
      unfold pumpName
      split
      · exact .pure trivial
      · exact trails_nameFromCircuits _ _ _ _
      · exact .raise _ _
    repeat fo_step
  unfold decodePumpTail
  repeat fo_step

/-- What can be decoded into some data can be decoded alone. -/
theorem decode_alone {f : String → Except PyErr Rat} {D D' : Decoder} (hD : D'.profile.msgs = false) (h : Trails Whatever (D.prog f) (D'.prog f)) {b : Bytes} {d : Val}
    (hd : (decodeWith (D.prog f) b d).1 = .ok ()) : (decodeWith (D'.prog f) b (.dict [])).1 = .ok () := by
  cases hr : ((D.prog f).run b 0 d).1 with
  | error e => rw [show (decodeWith (D.prog f) b d).1 = ((D.prog f).run b 0 d).1.map (fun _ => ()) from rfl, hr] at hd; cases hd
  | ok r =>
    obtain ⟨u, ht, -⟩ := trails_run h b 0 d r.1 r.2 hr
    rw [List.drop_zero] at ht
    have henv : (trace (fun g => Val.look g (.dict [])) (D'.prog f) 0 b).1 = .ok (u, r.2, b.drop r.2) := by
      rw [trace_congr (P := fun op => opOK D'.profile op = true) (env' := fun _ => none) ?_ (D'.fits f)]
      · exact ht
      · intro g hg
        cases g with
        | nil => exact absurd hg (by cases D' <;> simp [opOK, Decoder.profile])
        | cons k p => exact look_empty_cons k p
    rw [show (decodeWith (D'.prog f) b (.dict [])).1 = ((D'.prog f).run b 0 (.dict [])).1.map (fun _ => ()) from rfl,
      decode_trace f D' hD b (reachable_sound (f := f) .init)]
    simp only [TRes.result, henv]
    rfl

end SL
