/-!
# Python `dict` as an association list in insertion order
-/
namespace SL

variable {K V : Type} [DecidableEq K]

/-- `d.get(k)`. -/
def aget (k : K) : List (K × V) → Option V
  | [] => none
  | (k', v) :: t => if k' = k then some v else aget k t

/-- `d[k] = v`: replaces in place, or appends a new key at the end. -/
def aset (k : K) (v : V) : List (K × V) → List (K × V)
  | [] => [(k, v)]
  | (k', v') :: t => if k' = k then (k, v) :: t else (k', v') :: aset k v t

/-- `d.pop(k, None)` (the remaining dict). -/
def adel (k : K) : List (K × V) → List (K × V)
  | [] => []
  | (k', v') :: t => if k' = k then adel k t else (k', v') :: adel k t

theorem aget_aset_same (k : K) (v : V) (l : List (K × V)) : aget k (aset k v l) = some v := by
  induction l with
  | nil => simp [aset, aget]
  | cons p t ih =>
    obtain ⟨k', v'⟩ := p
    unfold aset
    split
    · simp [aget]
    · rename_i h; simp [aget, h, ih]

theorem aget_aset_ne {k k' : K} (h : k ≠ k') (v : V) (l : List (K × V)) :
    aget k' (aset k v l) = aget k' l := by
  induction l with
  | nil => simp [aset, aget, h]
  | cons p t ih =>
    obtain ⟨k2, v2⟩ := p
    unfold aset
    split
    · rename_i h2; subst h2; simp [aget, h]
    · simp only [aget]; split
      · rfl
      · exact ih

theorem aget_aset (k k' : K) (v : V) (l : List (K × V)) :
    aget k' (aset k v l) = if k = k' then some v else aget k' l := by
  split
  · rename_i h; subst h; exact aget_aset_same k v l
  · rename_i h; exact aget_aset_ne h v l

theorem aget_adel (k k' : K) (l : List (K × V)) :
    aget k' (adel k l) = if k = k' then none else aget k' l := by
  induction l with
  | nil => simp [adel, aget]
  | cons p t ih =>
    obtain ⟨k2, v2⟩ := p
    unfold adel
    split
    · rename_i h2; subst h2
      rw [ih]; split
      · rfl
      · rename_i h; simp [aget, h]
    · rename_i h2
      simp only [aget]
      split
      · rename_i h3; subst h3
        split
        · rename_i h4; exact absurd h4.symm h2
        · rfl
      · exact ih

theorem mem_of_aget {k : K} {v : V} {l : List (K × V)} (h : aget k l = some v) : (k, v) ∈ l := by
  induction l with
  | nil => simp [aget] at h
  | cons p t ih =>
    obtain ⟨k2, v2⟩ := p
    unfold aget at h
    split at h
    · rename_i h2; injection h with h; subst h2; subst h; simp
    · exact List.mem_cons_of_mem _ (ih h)

theorem mem_aset {k : K} {v : V} {l : List (K × V)} {p : K × V} (h : p ∈ aset k v l) :
    p = (k, v) ∨ (p ∈ l ∧ p.1 ≠ k) ∨ p ∈ l := by
  induction l with
  | nil => simp [aset] at h; exact .inl h
  | cons q t ih =>
    obtain ⟨k2, v2⟩ := q
    unfold aset at h
    split at h
    · rw [List.mem_cons] at h
      rcases h with h | h
      · exact .inl h
      · exact .inr (.inr (List.mem_cons_of_mem _ h))
    · rw [List.mem_cons] at h
      rcases h with h | h
      · exact .inr (.inr (by rw [h]; simp))
      · rcases ih h with h | h | h
        · exact .inl h
        · exact .inr (.inr (List.mem_cons_of_mem _ h.1))
        · exact .inr (.inr (List.mem_cons_of_mem _ h))

/-- The keys of a dict. -/
def akeys (l : List (K × V)) : List K := l.map (·.1)

theorem mem_akeys_aset {k k' : K} {v : V} {l : List (K × V)} :
    k' ∈ akeys (aset k v l) ↔ k' = k ∨ k' ∈ akeys l := by
  induction l with
  | nil => simp [aset, akeys]
  | cons q t ih =>
    obtain ⟨k2, v2⟩ := q
    unfold aset
    split
    · rename_i h; subst h; simp [akeys]
    · simp only [akeys, List.map_cons, List.mem_cons] at ih ⊢
      rw [ih]
      constructor
      · rintro (h | h | h) <;> simp [h]
      · rintro (h | h | h) <;> simp [h]

theorem mem_akeys_adel {k k' : K} {l : List (K × V)} :
    k' ∈ akeys (adel k l) ↔ k' ≠ k ∧ k' ∈ akeys l := by
  induction l with
  | nil => simp [adel, akeys]
  | cons q t ih =>
    obtain ⟨k2, v2⟩ := q
    unfold adel
    split
    · rename_i h; subst h
      rw [ih]; simp only [akeys, List.map_cons, List.mem_cons]
      constructor
      · rintro ⟨h1, h2⟩; exact ⟨h1, .inr h2⟩
      · rintro ⟨h1, h2⟩; exact ⟨h1, h2.resolve_left h1⟩
    · rename_i h
      simp only [akeys, List.map_cons, List.mem_cons] at ih ⊢
      rw [ih]
      constructor
      · rintro (h1 | ⟨h1, h2⟩)
        · exact ⟨by rw [h1]; exact h, .inl h1⟩
        · exact ⟨h1, .inr h2⟩
      · rintro ⟨h1, h2⟩
        exact h2.elim .inl (fun h3 => .inr ⟨h1, h3⟩)

theorem nodup_aset {k : K} {v : V} {l : List (K × V)} (h : (akeys l).Nodup) :
    (akeys (aset k v l)).Nodup := by
  induction l with
  | nil => simp [aset, akeys]
  | cons q t ih =>
    obtain ⟨k2, v2⟩ := q
    simp only [akeys, List.map_cons, List.nodup_cons] at h
    unfold aset
    split
    · rename_i h2; subst h2; simpa [akeys] using h
    · rename_i h2
      simp only [akeys, List.map_cons, List.nodup_cons]
      refine ⟨?_, ih h.2⟩
      intro hm
      have := (mem_akeys_aset (k := k) (v := v) (l := t)).1 hm
      exact this.elim h2 h.1

theorem nodup_adel {k : K} {l : List (K × V)} (h : (akeys l).Nodup) : (akeys (adel k l)).Nodup := by
  induction l with
  | nil => simp [adel, akeys]
  | cons q t ih =>
    obtain ⟨k2, v2⟩ := q
    simp only [akeys, List.map_cons, List.nodup_cons] at h
    unfold adel
    split
    · exact ih h.2
    · simp only [akeys, List.map_cons, List.nodup_cons]
      exact ⟨fun hm => h.1 ((mem_akeys_adel.1 hm).2), ih h.2⟩

theorem aget_of_mem {k : K} {v : V} {l : List (K × V)} (hn : (akeys l).Nodup) (h : (k, v) ∈ l) :
    aget k l = some v := by
  induction l with
  | nil => simp at h
  | cons q t ih =>
    obtain ⟨k2, v2⟩ := q
    simp only [akeys, List.map_cons, List.nodup_cons] at hn
    rw [List.mem_cons] at h
    unfold aget
    rcases h with h | h
    · simp only [Prod.mk.injEq] at h; simp [h]
    · have : k ∈ akeys t := List.mem_map.2 ⟨(k, v), h, rfl⟩
      rw [if_neg (fun he => hn.1 (by rw [he]; exact this))]
      exact ih hn.2 h

theorem mem_adel {k : K} {l : List (K × V)} {p : K × V} (h : p ∈ adel k l) : p ∈ l ∧ p.1 ≠ k := by
  induction l with
  | nil => simp [adel] at h
  | cons q t ih =>
    obtain ⟨k2, v2⟩ := q
    unfold adel at h
    split at h
    · exact ⟨List.mem_cons_of_mem _ (ih h).1, (ih h).2⟩
    · rename_i h2
      rw [List.mem_cons] at h
      rcases h with h | h
      · subst h; exact ⟨by simp, h2⟩
      · exact ⟨List.mem_cons_of_mem _ (ih h).1, (ih h).2⟩

theorem aget_eq_none_iff {k : K} {l : List (K × V)} : aget k l = none ↔ k ∉ akeys l := by
  induction l with
  | nil => simp [aget, akeys]
  | cons q t ih =>
    obtain ⟨k2, v2⟩ := q
    simp only [aget, akeys, List.map_cons, List.mem_cons, not_or] at ih ⊢
    split
    · rename_i h; simp [h]
    · rename_i h; rw [ih]; constructor
      · intro h1; exact ⟨fun h2 => h h2.symm, h1⟩
      · intro h1; exact h1.2

end SL
