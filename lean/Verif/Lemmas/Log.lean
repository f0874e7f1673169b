import Verif.Lemmas.Trace
/-! Reading values off a log of stores. -/
namespace SL

/-- The empty dict. -/
def Val.isEmptyDict : Val → Bool
  | .dict [] => true
  | _ => false

/-- The store cannot influence what is at `q`. -/
def W.avoids (q : Path) : W → Bool
  | .set p _ => !p.isPrefixOf q && !q.isPrefixOf p
  | .dflt p x => !q.isPrefixOf p && (x.isEmptyDict || !p.isPrefixOf q)

theorem look_avoid {q : Path} {w : W} (h : w.avoids q = true) (d : Val) : Val.look q (w.app d) = Val.look q d := by
  cases w with
  | set p x =>
    simp only [W.avoids, Bool.and_eq_true, Bool.not_eq_true', ← Bool.not_eq_true, List.isPrefixOf_iff_prefix] at h
    exact look_put_other x d h.1 h.2
  | dflt p x =>
    simp only [W.avoids, Bool.and_eq_true, Bool.not_eq_true', ← Bool.not_eq_true, List.isPrefixOf_iff_prefix,
      Bool.or_eq_true] at h
    rcases h.2 with h2 | h2
    · have : x = .dict [] := by
        cases x with
        | dict kv => cases kv with
          | nil => rfl
          | cons a b => simp [Val.isEmptyDict] at h2
        | _ => simp [Val.isEmptyDict] at h2
      subst this
      exact look_putNew_empty d h.1
    · exact look_putNew_other x d h2 h.1

theorem look_replay_avoid {q : Path} {ws : List W} (h : ∀ w ∈ ws, w.avoids q = true) (d : Val) :
    Val.look q (replay ws d) = Val.look q d := by
  induction ws generalizing d with
  | nil => rfl
  | cons w ws ih =>
    rw [replay, ih (fun w hw => h w (List.mem_cons_of_mem _ hw)), look_avoid (h w List.mem_cons_self)]

theorem look_replay_later {q : Path} {a b : List W} (h : ∀ w ∈ b, w.avoids q = true) (d : Val) :
    Val.look q (replay (a ++ b) d) = Val.look q (replay a d) := by
  rw [replay_append, look_replay_avoid h]

/-- What the log (last store first) leaves at `q`, when it can be told from the log alone. -/
def hit (q : Path) : List W → Option Val
  | [] => none
  | .set p x :: ws =>
    if p.isPrefixOf q then x.look (q.drop p.length) else if q.isPrefixOf p then none else hit q ws
  | .dflt p x :: ws => if (W.dflt p x).avoids q then hit q ws else none

theorem look_of_hit {q : Path} {ws : List W} {v : Val} (h : hit q ws = some v) (d : Val) :
    Val.look q (replay ws.reverse d) = some v := by
  induction ws with
  | nil => simp [hit] at h
  | cons w ws ih =>
    rw [List.reverse_cons, replay_append]
    simp only [replay]
    cases w with
    | set p x =>
      simp only [hit] at h
      split at h
      · rename_i hp
        rw [List.isPrefixOf_iff_prefix] at hp
        obtain ⟨r, rfl⟩ := hp
        rw [List.drop_left] at h
        simp only [W.app]
        rw [look_put_below, h]
      · rename_i h1
        split at h
        · simp at h
        · rename_i h2
          rw [look_avoid (by simp [W.avoids, h1, h2])]
          exact ih h
    | dflt p x =>
      simp only [hit] at h
      split at h
      · rename_i h1
        rw [look_avoid h1]; exact ih h
      · simp at h

theorem look_of_hit' {q : Path} {ws : List W} {v : Val} (h : hit q ws.reverse = some v) (d : Val) :
    Val.look q (replay ws d) = some v := by
  have := look_of_hit h d
  rwa [List.reverse_reverse] at this

/-- The path a store is at. -/
def W.path : W → Path
  | .set p _ => p
  | .dflt p _ => p

/-- The store is at or below the path. -/
def W.under (pre : Path) (w : W) : Prop := pre <+: w.path

theorem isPrefixOf_diverge {pre : Path} {a b : Key} {r r' : Path} (h : a ≠ b) :
    (pre ++ a :: r).isPrefixOf (pre ++ b :: r') = false := by
  rw [← Bool.not_eq_true, List.isPrefixOf_iff_prefix]
  intro hp
  rw [List.prefix_append_right_inj, List.cons_prefix_cons] at hp
  exact h hp.1

/-- Stores in one branch do not influence another branch. -/
theorem avoids_of_diverge {pre : Path} {a b : Key} {r' : Path} {w : W} (h : a ≠ b) (hw : w.under (pre ++ [a])) :
    w.avoids (pre ++ b :: r') = true := by
  obtain ⟨r, hr⟩ := hw
  have e : w.path = pre ++ a :: r := by rw [← hr]; simp
  cases w with
  | set p x => simp only [W.path] at e; subst e; simp only [W.avoids, isPrefixOf_diverge h, isPrefixOf_diverge h.symm]; rfl
  | dflt p x =>
    simp only [W.path] at e; subst e; simp only [W.avoids, isPrefixOf_diverge h, isPrefixOf_diverge h.symm, Bool.not_false, Bool.or_true]; rfl

theorem under_mono {a b : Path} {w : W} (h : a <+: b) (hw : w.under b) : w.under a := h.trans hw

theorem look_of_hit_mid {q : Path} {a ws b : List W} {v : Val} (h : hit q ws.reverse = some v)
    (hb : ∀ w ∈ b, w.avoids q = true) (d : Val) : Val.look q (replay (a ++ (ws ++ b)) d) = some v := by
  rw [replay_append, replay_append, look_replay_avoid hb]
  exact look_of_hit' h _

/-! ## Loops over a list of encoded items -/

/-- Log of a loop: `step i a s o` is the new state, offset and log of one item. -/
def loopLog {A σ : Type} (step : Nat → A → σ → Nat → σ × Nat × List W) : List A → Nat → σ → Nat → σ × Nat × List W
  | [], _, s, o => (s, o, [])
  | a :: as, i, s, o =>
    let r := step i a s o
    let t := loopLog step as (i + 1) r.1 r.2.1
    (t.1, t.2.1, r.2.2 ++ t.2.2)

theorem trace_loop {A σ : Type} {env : Path → Option Val} {enc : A → Bytes} {body : Nat → σ → Prog σ}
    {step : Nat → A → σ → Nat → σ × Nat × List W} (as : List A)
    (h : ∀ i, ∀ a ∈ as, ∀ s o r, trace env (body i s) o (enc a ++ r) = (.ok ((step i a s o).1, (step i a s o).2.1, r), (step i a s o).2.2)) :
    ∀ i s o r, trace env (Prog.loop body as.length i s) o (as.flatMap enc ++ r) =
      (.ok ((loopLog step as i s o).1, (loopLog step as i s o).2.1, r), (loopLog step as i s o).2.2) := by
  induction as with
  | nil => intro i s o r; rfl
  | cons a as ih =>
    intro i s o r
    simp only [List.length_cons, Prog.loop, List.flatMap_cons, List.append_assoc, trace_bind, loopLog]
    rw [h i a List.mem_cons_self]
    simp only [TRes.andThen]
    rw [ih (fun i a ha => h i a (List.mem_cons_of_mem _ ha))]

theorem loopLog_forall {A σ : Type} {step : Nat → A → σ → Nat → σ × Nat × List W} {P : W → Prop} (as : List A)
    (h : ∀ i, ∀ a ∈ as, ∀ s o, ∀ w ∈ (step i a s o).2.2, P w) : ∀ i s o, ∀ w ∈ (loopLog step as i s o).2.2, P w := by
  induction as with
  | nil => intro i s o w hw; simp [loopLog] at hw
  | cons a as ih =>
    intro i s o w hw
    simp only [loopLog, List.mem_append] at hw
    rcases hw with hw | hw
    · exact h i a List.mem_cons_self s o w hw
    · exact ih (fun i a ha => h i a (List.mem_cons_of_mem _ ha)) _ _ _ w hw

theorem loopLog_split {A σ : Type} {step : Nat → A → σ → Nat → σ × Nat × List W} (as : List A) (a : A) (bs : List A) :
    ∀ i s o, ∃ s1 o1 s2 o2, (loopLog step (as ++ a :: bs) i s o).2.2 =
      (loopLog step as i s o).2.2 ++ ((step (i + as.length) a s1 o1).2.2 ++ (loopLog step bs (i + as.length + 1) s2 o2).2.2) := by
  induction as with
  | nil => intro i s o; exact ⟨_, _, _, _, rfl⟩
  | cons b as ih =>
    intro i s o
    obtain ⟨s1, o1, s2, o2, h⟩ := ih (i + 1) (step i b s o).1 (step i b s o).2.1
    refine ⟨s1, o1, s2, o2, ?_⟩
    simp only [List.cons_append, loopLog, List.length_cons, h, List.append_assoc]
    rw [show i + (as.length + 1) = i + 1 + as.length by omega]

/-- Indexed variant of the invariant: later items have larger indices. -/
theorem loopLog_forall_ix {A σ : Type} {step : Nat → A → σ → Nat → σ × Nat × List W} {P : Nat → W → Prop} (as : List A)
    (h : ∀ i, ∀ a ∈ as, ∀ s o, ∀ w ∈ (step i a s o).2.2, P i w) :
    ∀ i s o, ∀ w ∈ (loopLog step as i s o).2.2, ∃ j, i ≤ j ∧ P j w := by
  induction as with
  | nil => intro i s o w hw; simp [loopLog] at hw
  | cons a as ih =>
    intro i s o w hw
    simp only [loopLog, List.mem_append] at hw
    rcases hw with hw | hw
    · exact ⟨i, Nat.le_refl _, h i a List.mem_cons_self s o w hw⟩
    · obtain ⟨j, hj, hp⟩ := ih (fun i a ha => h i a (List.mem_cons_of_mem _ ha)) _ _ _ w hw
      exact ⟨j, by omega, hp⟩


/-! ## Loops, with the log of each round left abstract -/

theorem trace_rounds {A σ : Type} {env : Path → Option Val} {enc : A → Bytes} {body : Nat → σ → Prog σ}
    {next : A → σ → σ} {Good : Nat → A → List W → Prop} (as : List A)
    (h : ∀ i, ∀ a ∈ as, ∀ s o, ∃ ws, (∀ r, trace env (body i s) o (enc a ++ r) = (.ok (next a s, o + (enc a).length, r), ws)) ∧
      Good i a ws) :
    ∀ i s o, ∃ wss : List (List W),
      (∀ r, trace env (Prog.loop body as.length i s) o (as.flatMap enc ++ r) =
        (.ok (as.foldl (fun s a => next a s) s, o + (as.flatMap enc).length, r), wss.flatten)) ∧
      wss.length = as.length ∧
      ∀ j a, as[j]? = some a → ∃ ws, wss[j]? = some ws ∧ Good (i + j) a ws := by
  induction as with
  | nil => intro i s o; exact ⟨[], fun r => rfl, rfl, fun j a h => by simp at h⟩
  | cons a as ih =>
    intro i s o
    obtain ⟨ws, h1, h2⟩ := h i a List.mem_cons_self s o
    obtain ⟨wss, h3, h4, h5⟩ := ih (fun i a ha => h i a (List.mem_cons_of_mem _ ha)) (i + 1) (next a s) (o + (enc a).length)
    refine ⟨ws :: wss, ?_, by simp [h4], ?_⟩
    · intro r
      simp only [List.length_cons, Prog.loop, List.flatMap_cons, List.append_assoc, trace_bind, h1, TRes.andThen, h3,
        List.foldl_cons, List.length_append, Nat.add_assoc, List.flatten_cons]
    · intro j b hb
      cases j with
      | zero => simp only [List.getElem?_cons_zero, Option.some.injEq] at hb; subst hb; exact ⟨ws, rfl, h2⟩
      | succ j =>
        obtain ⟨ws', h6, h7⟩ := h5 j b (by simpa using hb)
        exact ⟨ws', by simpa using h6, by rw [show i + (j + 1) = i + 1 + j by omega]; exact h7⟩

theorem rounds_split {wss : List (List W)} {j : Nat} {ws : List W} (h : wss[j]? = some ws) :
    wss.flatten = (wss.take j).flatten ++ (ws ++ (wss.drop (j + 1)).flatten) := by
  obtain ⟨hj, h⟩ := List.getElem?_eq_some_iff.1 h
  conv => lhs; rw [← List.take_append_drop j wss, List.drop_eq_getElem_cons hj, h]
  simp

theorem rounds_mem {A : Type} {as : List A} {wss : List (List W)} {Good : Nat → A → List W → Prop} {i : Nat}
    (hl : wss.length = as.length) (h : ∀ j a, as[j]? = some a → ∃ ws, wss[j]? = some ws ∧ Good (i + j) a ws)
    {w : W} (hw : w ∈ wss.flatten) : ∃ j a ws, as[j]? = some a ∧ wss[j]? = some ws ∧ Good (i + j) a ws ∧ w ∈ ws := by
  obtain ⟨l, hl1, hl2⟩ := List.mem_flatten.1 hw
  obtain ⟨j, hj⟩ := List.mem_iff_getElem?.1 hl1
  obtain ⟨hj', -⟩ := List.getElem?_eq_some_iff.1 hj
  obtain ⟨ws, h1, h2⟩ := h j as[j] (List.getElem?_eq_getElem (by omega))
  rw [hj, Option.some.injEq] at h1
  subst h1
  exact ⟨j, _, l, List.getElem?_eq_getElem (by omega), hj, h2, hl2⟩

theorem rounds_mem_drop {A : Type} {as : List A} {wss : List (List W)} {Good : Nat → A → List W → Prop} {i : Nat}
    (hl : wss.length = as.length) (h : ∀ j a, as[j]? = some a → ∃ ws, wss[j]? = some ws ∧ Good (i + j) a ws)
    {n : Nat} {w : W} (hw : w ∈ (wss.drop n).flatten) :
    ∃ j a ws, n ≤ j ∧ as[j]? = some a ∧ Good (i + j) a ws ∧ w ∈ ws := by
  have h' : ∀ j a, (as.drop n)[j]? = some a → ∃ ws, (wss.drop n)[j]? = some ws ∧ Good (i + n + j) a ws := by
    intro j a ha
    rw [List.getElem?_drop] at ha
    obtain ⟨ws, h1, h2⟩ := h _ _ ha
    exact ⟨ws, by rw [List.getElem?_drop]; exact h1, by rw [Nat.add_assoc]; exact h2⟩
  obtain ⟨j, a, ws, h1, -, h3, h4⟩ := rounds_mem (by simp [hl]) h' hw
  rw [List.getElem?_drop] at h1
  exact ⟨n + j, a, ws, by omega, h1, by rw [← Nat.add_assoc]; exact h3, h4⟩

theorem hit_skip {q : Path} {l m : List W} (h : ∀ w ∈ l, w.avoids q = true) : hit q (l ++ m) = hit q m := by
  induction l with
  | nil => rfl
  | cons w l ih =>
    have hw := h w List.mem_cons_self
    have := ih (fun w hw => h w (List.mem_cons_of_mem _ hw))
    cases w with
    | set p x =>
      simp only [W.avoids, Bool.and_eq_true, Bool.not_eq_true'] at hw
      simp only [List.cons_append, hit, hw, Bool.false_eq_true, if_false, this]
    | dflt p x =>
      simp only [List.cons_append, hit, hw, if_true, this]

end SL
