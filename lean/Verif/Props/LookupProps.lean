import Verif.Model.Lookup
import Verif.Lemmas.Val
/-!
# C35: looking data up by path

`Follows p d v`: following the keys `p` from `d`, through dicts and lists, leads to `v`, all objects on the way
(and `v` itself, unless `p` is empty) being something else than Python's `None`.
-/
namespace SL

/-- Specification of a key path. -/
inductive Follows : Path → Val → Val → Prop
  | here (v : Val) : Follows [] v v
  | item {k : Key} {ks : Path} {kv : List (Key × Val)} {w v : Val} (h : aget k kv = some w) (hn : w ≠ .null)
      (hs : Follows ks w v) : Follows (k :: ks) (.dict kv) v
  | elem {n : Nat} {ks : Path} {l : List Val} {w v : Val} (h : l[n]? = some w) (hn : w ≠ .null)
      (hs : Follows ks w v) : Follows (.i n :: ks) (.list l) v

/-- At most one object is found. -/
theorem C35_unique {p : Path} {d v w : Val} (h : Follows p d v) (h' : Follows p d w) : v = w := by
  induction h with
  | here v => cases h'; rfl
  | item h hn hs ih =>
    cases h' with
    | item h2 hn2 hs2 =>
      rw [h] at h2
      cases h2
      exact ih hs2
  | elem h hn hs ih =>
    generalize he : Val.list _ = x at h'
    generalize hk : Key.i _ :: _ = q at h'
    cases h' with
    | elem h2 hn2 hs2 =>
      cases he
      simp only [List.cons.injEq, Key.i.injEq, Int.natCast_inj] at hk
      obtain ⟨rfl, rfl⟩ := hk
      rw [h] at h2
      cases h2
      exact ih hs2
    | here => cases hk
    | item => cases he

theorem follows_next (k : Key) (ks : Path) (d v : Val) :
    Follows (k :: ks) d v ↔ getNext d k ≠ .null ∧ Follows ks (getNext d k) v := by
  constructor
  · intro h
    cases h with
    | item h hn hs => simp only [getNext, h, Option.getD_some]; exact ⟨hn, hs⟩
    | @elem n _ l w _ h hn hs =>
      obtain ⟨hlt, he⟩ := List.getElem?_eq_some_iff.1 h
      have hc : (0 : Int) ≤ n ∧ (n : Int) < l.length := by omega
      simp only [getNext, if_pos hc, List.getD_eq_getElem?_getD, Int.toNat_natCast, h, Option.getD_some]
      exact ⟨hn, hs⟩
  · rintro ⟨hn, hs⟩
    cases d with
    | dict kv =>
      simp only [getNext] at hn hs
      cases h : aget k kv with
      | none => simp [h] at hn
      | some w =>
        simp only [h, Option.getD_some] at hn hs
        exact .item h hn hs
    | list l =>
      cases k with
      | s x => simp [getNext] at hn
      | i n =>
        simp only [getNext] at hn hs
        split at hn
        · rename_i hc
          simp only [if_pos hc] at hs
          obtain ⟨m, rfl⟩ : ∃ m : Nat, n = m := ⟨n.toNat, by omega⟩
          have hlt : m < l.length := by omega
          simp only [Int.toNat_natCast, List.getD_eq_getElem?_getD, List.getElem?_eq_getElem hlt, Option.getD_some] at hn hs
          exact .elem (List.getElem?_eq_getElem hlt) hn hs
        · exact absurd rfl hn
    | _ => simp [getNext] at hn

/-- What `get_data` finds is the object at the end of the path, strict or not. -/
theorem C35_found (strict : Bool) (p : Path) (d v : Val) (h : Follows p d v) : getData strict p d = .ok v := by
  induction p generalizing d with
  | nil => cases h; rfl
  | cons k ks ih =>
    obtain ⟨hn, hs⟩ := (follows_next k ks d v).1 h
    simp only [getData, if_neg hn]
    exact ih _ hs

/-- If there is no such object, `get_data` returns `None`, or raises `KeyError` when strict. -/
theorem C35_missing (strict : Bool) (p : Path) (d : Val) (h : ¬ ∃ v, Follows p d v) :
    getData strict p d = if strict then .error .keyError else .ok .null := by
  induction p generalizing d with
  | nil => exact absurd ⟨d, .here d⟩ h
  | cons k ks ih =>
    simp only [getData]
    by_cases hn : getNext d k = .null
    · rw [if_pos hn]
    · rw [if_neg hn]
      exact ih _ (fun ⟨v, hv⟩ => h ⟨v, (follows_next k ks d v).2 ⟨hn, hv⟩⟩)

theorem follows_append (p q : Path) (d v : Val) : Follows (p ++ q) d v ↔ ∃ w, Follows p d w ∧ Follows q w v := by
  induction p generalizing d with
  | nil => exact ⟨fun h => ⟨d, .here d, h⟩, fun ⟨w, h1, h2⟩ => by cases h1; exact h2⟩
  | cons k ks ih =>
    simp only [List.cons_append, follows_next, ih]
    constructor
    · rintro ⟨hn, w, h1, h2⟩; exact ⟨w, ⟨hn, h1⟩, h2⟩
    · rintro ⟨w, ⟨hn, h1⟩, h2⟩; exact ⟨hn, w, h1, h2⟩

theorem getAttr_eq (attr : String) (strict : Bool) (p : Path) (d : Val) (hd : ∀ v, Follows p d v → v ≠ .null) :
    getAttr attr strict p d = getData strict (p ++ [.s attr]) d := by
  by_cases h : ∃ v, Follows p d v
  · obtain ⟨v, hv⟩ := h
    simp only [getAttr, C35_found strict p d v hv]
    by_cases h2 : ∃ w, Follows [.s attr] v w
    · obtain ⟨w, hw⟩ := h2
      rw [C35_found strict _ d w ((follows_append p _ d w).2 ⟨v, hv, hw⟩)]
      cases hw with
      | item h hn hs =>
        cases hs
        simp only [h]
    · rw [C35_missing strict _ d (fun ⟨w, hw⟩ => by
        obtain ⟨u, h1, h2'⟩ := (follows_append p _ d w).1 hw
        cases C35_unique hv h1
        exact h2 ⟨w, h2'⟩)]
      cases v with
      | dict kv =>
        simp only
        cases ha : aget (.s attr) kv with
        | none => rfl
        | some w =>
          by_cases hw : w = .null
          · subst hw; rfl
          · exact absurd ⟨w, .item ha hw (.here w)⟩ h2
      | _ => rfl
  · rw [C35_missing strict _ d (fun ⟨w, hw⟩ => by
        obtain ⟨u, h1, _⟩ := (follows_append p _ d w).1 hw
        exact h ⟨u, h1⟩)]
    simp only [getAttr, C35_missing strict p d h]
    cases strict <;> rfl

/-- `get_value(*path)` is `get_data(*path, "value")`, as its documentation says, for every path and all data
that are not `None`. -/
theorem C35_value (strict : Bool) (p : Path) (d : Val) (hd : d ≠ .null) :
    getValue strict p d = getData strict (p ++ [.s "value"]) d := by
  refine getAttr_eq _ strict p d (fun v hv => ?_)
  cases p with
  | nil => cases hv; exact hd
  | cons k ks => exact follows_ne hv
where
  follows_ne {k : Key} {ks : Path} {d v : Val} (h : Follows (k :: ks) d v) : v ≠ .null := by
    induction ks generalizing d k with
    | nil =>
      obtain ⟨hn, hs⟩ := (follows_next _ _ _ _).1 h
      cases hs
      exact hn
    | cons k' ks ih => exact ih ((follows_next _ _ _ _).1 h).2

/-- `get_name(*path)` is `get_data(*path, "name")`. -/
theorem C35_name (strict : Bool) (p : Path) (d : Val) (hd : d ≠ .null) :
    getName strict p d = getData strict (p ++ [.s "name"]) d := by
  refine getAttr_eq _ strict p d (fun v hv => ?_)
  cases p with
  | nil => cases hv; exact hd
  | cons k ks => exact C35_value.follows_ne hv

/-- Satisfied: a path through a dict and a list to a stored object, a path that leads to nothing, and the
values `get_data`, `get_value` and `get_name` return there. -/
theorem C35_witness :
    let d : Val := .dict [(.s "pump", .dict [(.i 0, .dict [(.s "preset", .list [.dict [(.s "rpm", .dict [(.s "name", .str "RPM"), (.s "value", .int 0)])]])])])]
    let p : Path := [.s "pump", .i 0, .s "preset", .i 0, .s "rpm"]
    Follows p d (.dict [(.s "name", .str "RPM"), (.s "value", .int 0)]) ∧
    getValue true p d = .ok (.int 0) ∧ getName false p d = .ok (.str "RPM") ∧
    (¬ ∃ v, Follows [.s "pump", .i 0, .s "preset", .i 1] d v) ∧
    getData true [.s "pump", .i 0, .s "preset", .i (-1)] d = .error .keyError ∧
    getData false [.s "pump", .i 7, .s "preset"] d = .ok .null := by
  refine ⟨?_, by decide, by decide, ?_, by decide, by decide⟩
  · exact .item rfl (by simp) (.item rfl (by simp) (.item rfl (by simp) (.elem (n := 0) rfl (by simp) (.item rfl (by simp) (.here _)))))
  · rintro ⟨v, hv⟩
    have h1 := C35_found true _ _ _ hv
    have h2 : getData true [.s "pump", .i 0, .s "preset", .i 1] (.dict [(.s "pump", .dict [(.i 0, .dict [(.s "preset", .list [.dict
      [(.s "rpm", .dict [(.s "name", .str "RPM"), (.s "value", .int 0)])]])])])]) = .error .keyError := by decide
    rw [h2] at h1
    cases h1

end SL
