import Verif.Model.Val
/-! Lemmas about looking up and storing in the data tree. -/
namespace SL

@[simp] theorem look_nil (v : Val) : Val.look [] v = some v := by cases v <;> rfl

theorem look_cons_dict (k : Key) (p : Path) (kv : List (Key × Val)) :
    Val.look (k :: p) (.dict kv) = (aget k kv).bind (Val.look p) := rfl

theorem look_cons_some {k : Key} {p : Path} {v x : Val} (h : Val.look (k :: p) v = some x) :
    ∃ kv w, v = .dict kv ∧ aget k kv = some w ∧ Val.look p w = some x := by
  cases v with
  | dict kv =>
    rw [look_cons_dict] at h
    cases hk : aget k kv with
    | none => simp [hk] at h
    | some w => exact ⟨kv, w, rfl, hk, by simpa [hk] using h⟩
  | _ => simp [Val.look] at h

theorem look_append (p q : Path) (v : Val) : Val.look (p ++ q) v = (Val.look p v).bind (Val.look q) := by
  induction p generalizing v with
  | nil => simp
  | cons k p ih =>
    cases v with
    | dict kv =>
      simp only [List.cons_append, look_cons_dict]
      cases aget k kv with
      | none => rfl
      | some w => simp [ih]
    | _ => simp [Val.look]

@[simp] theorem put_nil (x d : Val) : Val.put [] x d = x := by cases d <;> rfl

theorem put_cons_dict (k : Key) (p : Path) (x : Val) (kv : List (Key × Val)) :
    Val.put (k :: p) x (.dict kv) = .dict (aset k (Val.put p x ((aget k kv).getD (.dict []))) kv) := rfl

theorem put_cons (k : Key) (p : Path) (x d : Val) :
    ∃ kv c, Val.put (k :: p) x d = .dict (aset k (Val.put p x c) kv) ∧
      (∀ (k' : Key) (q : Path), Val.look (k' :: q) d = (aget k' kv).bind (Val.look q)) ∧
      (c = (aget k kv).getD (.dict [])) := by
  cases d with
  | dict kv => exact ⟨kv, _, rfl, fun _ _ => rfl, rfl⟩
  | _ => exact ⟨[], .dict [], rfl, fun _ _ => rfl, rfl⟩

theorem look_empty_cons (k : Key) (p : Path) : Val.look (k :: p) (.dict []) = none := rfl

theorem look_empty {p : Path} (h : p ≠ []) : Val.look p (.dict []) = none := by
  cases p with
  | nil => exact absurd rfl h
  | cons k p => rfl

/-- Reading below a stored object reads the object. -/
theorem look_put_below (p r : Path) (x d : Val) : Val.look (p ++ r) (Val.put p x d) = Val.look r x := by
  induction p generalizing d with
  | nil => simp
  | cons k p ih =>
    obtain ⟨kv, c, h, -, -⟩ := put_cons k p x d
    rw [h, List.cons_append, look_cons_dict, aget_aset_same]
    exact ih c

theorem look_put_same (p : Path) (x d : Val) : Val.look p (Val.put p x d) = some x := by
  have := look_put_below p [] x d
  simpa using this

/-- Reading elsewhere is unaffected. -/
theorem look_put_other {p q : Path} (x d : Val) (h1 : ¬ p <+: q) (h2 : ¬ q <+: p) :
    Val.look q (Val.put p x d) = Val.look q d := by
  induction p generalizing q d with
  | nil => exact absurd (List.nil_prefix) h1
  | cons k p ih =>
    cases q with
    | nil => exact absurd (List.nil_prefix) h2
    | cons k' q =>
      obtain ⟨kv, c, h, hl, hc⟩ := put_cons k p x d
      rw [h, look_cons_dict, hl, aget_aset]
      by_cases hk : k = k'
      · subst hk
        rw [if_pos rfl, Option.bind_some]
        have h1' : ¬ p <+: q := fun hp => h1 (List.cons_prefix_cons.2 ⟨rfl, hp⟩)
        have h2' : ¬ q <+: p := fun hp => h2 (List.cons_prefix_cons.2 ⟨rfl, hp⟩)
        rw [ih c h1' h2', hc]
        cases hg : aget k kv with
        | some w => rfl
        | none =>
          have : q ≠ [] := fun hq => h2' (by rw [hq]; exact List.nil_prefix)
          simp [look_empty this]
      · rw [if_neg hk]

/-- Storing below a node keeps (or makes) it a dict. -/
theorem look_put_above {p q : Path} (x d : Val) (h : q <+: p) (hne : q ≠ p) :
    ∃ kv, Val.look q (Val.put p x d) = some (.dict kv) := by
  induction p generalizing q d with
  | nil => exact absurd (List.prefix_nil.1 h) hne
  | cons k p ih =>
    obtain ⟨kv, c, hp, -, -⟩ := put_cons k p x d
    cases q with
    | nil => exact ⟨_, by rw [look_nil, hp]⟩
    | cons k' q =>
      rw [List.cons_prefix_cons] at h
      obtain ⟨rfl, h⟩ := h
      rw [hp, look_cons_dict, aget_aset_same, Option.bind_some]
      exact ih c h (fun hq => hne (by rw [hq]))

theorem look_prefix_some {p q : Path} {v x : Val} (h : q <+: p) (hs : Val.look p v = some x) :
    ∃ y, Val.look q v = some y := by
  obtain ⟨r, rfl⟩ := h
  rw [look_append] at hs
  cases hq : Val.look q v with
  | none => simp [hq] at hs
  | some y => exact ⟨y, rfl⟩

theorem look_prefix_dict {p q : Path} {v x : Val} (h : q <+: p) (hne : q ≠ p) (hs : Val.look p v = some x) :
    ∃ kv, Val.look q v = some (.dict kv) := by
  obtain ⟨r, rfl⟩ := h
  cases r with
  | nil => simp at hne
  | cons k r =>
    rw [look_append] at hs
    cases hq : Val.look q v with
    | none => simp [hq] at hs
    | some y =>
      rw [hq, Option.bind_some] at hs
      obtain ⟨kv, w, rfl, -, -⟩ := look_cons_some hs
      exact ⟨kv, rfl⟩

theorem putNew_of_some {p : Path} {x d y : Val} (h : Val.look p d = some y) : Val.putNew p x d = d := by
  unfold Val.putNew; rw [h]

theorem putNew_of_none {p : Path} {x d : Val} (h : Val.look p d = none) : Val.putNew p x d = Val.put p x d := by
  unfold Val.putNew; rw [h]

/-- Adding an empty group changes no reading except the group itself (and its ancestors). -/
theorem look_putNew_empty {p q : Path} (d : Val) (h : ¬ q <+: p) :
    Val.look q (Val.putNew p (.dict []) d) = Val.look q d := by
  cases hp : Val.look p d with
  | some y => rw [putNew_of_some hp]
  | none =>
    rw [putNew_of_none hp]
    by_cases h1 : p <+: q
    · obtain ⟨r, rfl⟩ := h1
      rw [look_put_below, look_append, hp]
      cases r with
      | nil => exact absurd (by simp) h
      | cons k r => rfl
    · exact look_put_other _ _ h1 h

/-- `setdefault` elsewhere changes nothing. -/
theorem look_putNew_other {p q : Path} (x d : Val) (h1 : ¬ p <+: q) (h2 : ¬ q <+: p) :
    Val.look q (Val.putNew p x d) = Val.look q d := by
  cases hp : Val.look p d with
  | some y => rw [putNew_of_some hp]
  | none => rw [putNew_of_none hp]; exact look_put_other _ _ h1 h2

/-- `setdefault` keeps what is there. -/
theorem look_putNew_same (p : Path) (x d : Val) :
    Val.look p (Val.putNew p x d) = some ((Val.look p d).getD x) := by
  cases hp : Val.look p d with
  | some y => rw [putNew_of_some hp, hp]; rfl
  | none => rw [putNew_of_none hp, look_put_same]; rfl

theorem look_putNew_below (p r : Path) (x d : Val) :
    Val.look (p ++ r) (Val.putNew p x d) = ((Val.look p d).getD x).look r := by
  rw [look_append, look_putNew_same]; rfl

theorem chain_eq_look {p : Path} {v : Val} (h : ∀ q k, (q ++ [k]) <+: p → ∀ w, Val.look q v = some w → w.isDict = true) :
    Val.chain p v = .ok (Val.look p v) := by
  induction p generalizing v with
  | nil => cases v <;> rfl
  | cons k p ih =>
    have h0 := h [] k (by simp) v (look_nil v)
    cases v with
    | dict kv =>
      simp only [Val.chain, look_cons_dict]
      cases hk : aget k kv with
      | none => rfl
      | some w =>
        simp only [Option.bind_some]
        apply ih
        intro q k' hq w' hw'
        refine h (k :: q) k' (List.cons_prefix_cons.2 ⟨rfl, hq⟩) w' ?_
        rw [look_cons_dict, hk]; exact hw'
    | _ => simp [Val.isDict] at h0

theorem chain_ok {p : Path} {v : Val} {o : Option Val} (h : Val.chain p v = .ok o) : Val.look p v = o := by
  induction p generalizing v with
  | nil => cases v <;> simpa [Val.chain] using h
  | cons k p ih =>
    cases v with
    | dict kv =>
      simp only [Val.chain] at h
      rw [look_cons_dict]
      cases hk : aget k kv with
      | none => simp [hk] at h; subst h; rfl
      | some w => rw [hk] at h; exact ih h
    | _ => simp [Val.chain] at h

end SL
