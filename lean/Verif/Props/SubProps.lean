import Verif.Lemmas.Subs
import Verif.Lemmas.Sample
/-!
# C45: listeners
-/
set_option linter.unusedVariables false

namespace SL

section
variable (E : Env) (clientId maxRetries : Int)

theorem Honest.left {es l : List Ev} (h : Honest E clientId maxRetries (es ++ l)) : Honest E clientId maxRetries es := by
  intro pre u post e
  exact h pre u (post ++ l) (by rw [e]; simp)

theorem call_snoc (es1 : List Ev) (a : Call) (es2 : List Ev) : es1 ++ Ev.call a :: es2 = (es1 ++ [.call a]) ++ es2 := by simp

theorem returned_own {es1 : List Ev} {cb code : Nat} {es2 : List Ev} {u : Sub} (hi : (after E clientId maxRetries es1).g.table.Inv)
    (h : Returns E clientId maxRetries es1 cb code es2 u) :
    u.code = code ∧ u.cb = cb ∧ aget code (after E clientId maxRetries (es1 ++ [.call (.subscribe cb code)])).g.table.1 = some u.set ∧
    (after E clientId maxRetries (es1 ++ .call (.subscribe cb code) :: es2)).g.table.Own u.code u.set := by
  obtain ⟨ha, hu⟩ := returns_what E clientId maxRetries h
  have ht := table_subscribe E clientId maxRetries es1 cb code
  rw [if_pos ha] at ht
  subst hu
  have hag : aget code (after E clientId maxRetries (es1 ++ [.call (.subscribe cb code)])).g.table.1 =
      some ((after E clientId maxRetries es1).g.table.slot code) := by
    rw [ht, aget_add, if_pos rfl]
    rfl
  refine ⟨rfl, rfl, hag, ?_⟩
  rw [call_snoc]
  refine own_keeps E clientId maxRetries ?_ es2
  have hi' := inv_add hi code cb
  rw [← ht] at hi'
  obtain ⟨l, hl, _⟩ := hi'.ref _ _ hag
  exact ⟨(List.getElem?_eq_some_iff.1 hl).1, fun c hc => hi'.inj _ _ _ hc hag⟩

theorem honest_inv : ∀ (n : Nat) (es : List Ev), es.length ≤ n → Honest E clientId maxRetries es →
    (after E clientId maxRetries es).g.table.Inv := by
  intro n
  induction n with
  | zero =>
    intro es hn _
    have : es = [] := by cases es with | nil => rfl | cons a l => simp at hn
    subst this
    refine ⟨?_, ?_, ?_, ?_⟩
    · intro c s h
      cases h
    · intro c c' s h
      cases h
    · intro s l h
      have e : (after E clientId maxRetries []).g.table.2 = [] := rfl
      rw [e, List.getElem?_nil] at h
      cases h
    · intro s l h
      have e : (after E clientId maxRetries []).g.table.2 = [] := rfl
      rw [e, List.getElem?_nil] at h
      cases h
  | succ n ih =>
    intro es hn hh
    rcases List.eq_nil_or_concat es with rfl | ⟨l, ev, e⟩
    · exact ih [] (by simp) hh
    · rw [List.concat_eq_append] at e
      subst e
      have hl : l.length ≤ n := by simp at hn; omega
      have hi := ih l hl (hh.left E clientId maxRetries)
      rcases table_event E clientId maxRetries l ev with e | ⟨cb, code, _, e⟩ | ⟨u, hu, e⟩ <;> rw [e]
      · exact hi
      · exact inv_add hi code cb
      · subst hu
        obtain ⟨es1, cb, code, es2, rfl, hr⟩ := hh l u [] rfl
        have h1 := ih es1 (by simp at hl; omega) ((hh.left E clientId maxRetries).left E clientId maxRetries)
        exact (inv_del hi (returned_own E clientId maxRetries h1 hr).2.2.2).1

theorem Honest.inv {es : List Ev} (h : Honest E clientId maxRetries es) : (after E clientId maxRetries es).g.table.Inv :=
  honest_inv E clientId maxRetries _ es (Nat.le_refl _) h

/-- **C45**: subscribing adds exactly one pair, at once, if the gateway is attached; otherwise nothing. -/
theorem C45_subscribe (es : List Ev) (h : Honest E clientId maxRetries es) (cb code c b : Nat) :
    Listening (after E clientId maxRetries (es ++ [.call (.subscribe cb code)])).g c b ↔
      Listening (after E clientId maxRetries es).g c b ∨ (after E clientId maxRetries es).g.attached = true ∧ c = code ∧ b = cb := by
  rw [listening_table, table_subscribe, listening_table]
  split
  · rename_i ha
    rw [on_add (h.inv E clientId maxRetries)]
    simp only [ha, true_and]
  · rename_i ha
    simp [ha]

/-- **C45**: an unsubscribe function never removes another pair. -/
theorem C45_never_other (es1 : List Ev) (cb code : Nat) (es2 : List Ev) (u : Sub)
    (h : Honest E clientId maxRetries (es1 ++ .call (.subscribe cb code) :: es2)) (hr : Returns E clientId maxRetries es1 cb code es2 u)
    (c b : Nat) (hne : c ≠ code ∨ b ≠ cb) :
    Listening (after E clientId maxRetries (es1 ++ .call (.subscribe cb code) :: (es2 ++ [.unsubscribe u]))).g c b ↔
      Listening (after E clientId maxRetries (es1 ++ .call (.subscribe cb code) :: es2)).g c b := by
  obtain ⟨h1, h2, _, ho⟩ := returned_own E clientId maxRetries ((h.left E clientId maxRetries).inv E clientId maxRetries) hr
  have e : es1 ++ Ev.call (.subscribe cb code) :: (es2 ++ [.unsubscribe u]) =
      (es1 ++ .call (.subscribe cb code) :: es2) ++ [.unsubscribe u] := by simp
  rw [e, listening_table, table_unsubscribe, listening_table, (inv_del (h.inv E clientId maxRetries) ho).2]
  constructor
  · exact fun x => x.1
  · intro x
    refine ⟨x, ?_⟩
    rintro ⟨e1, e2, _⟩
    rcases hne with hn | hn
    · exact hn (e1.trans h1)
    · exact hn (e2.trans h2)

/-- While the code keeps having listeners its set object stays the same; once it has none, a new one is made. -/
theorem current_set {es1 : List Ev} {cb code : Nat} {es2 : List Ev} {u : Sub}
    (h : Honest E clientId maxRetries (es1 ++ .call (.subscribe cb code) :: es2)) (hr : Returns E clientId maxRetries es1 cb code es2 u)
    (hp : ∀ p q, es2 = p ++ q → ∃ b, Listening (after E clientId maxRetries (es1 ++ .call (.subscribe cb code) :: p)).g code b) :
    aget code (after E clientId maxRetries (es1 ++ .call (.subscribe cb code) :: es2)).g.table.1 = some u.set := by
  obtain ⟨_, _, h0, _⟩ := returned_own E clientId maxRetries ((h.left E clientId maxRetries).inv E clientId maxRetries) hr
  have key : ∀ p, (∀ a c, p = a ++ c → ∃ b, Listening (after E clientId maxRetries (es1 ++ .call (.subscribe cb code) :: a)).g code b) →
      aget code (after E clientId maxRetries (es1 ++ .call (.subscribe cb code) :: p)).g.table.1 = some u.set := by
    intro p
    refine snoc_ind (P := fun p => (∀ a c, p = a ++ c → ∃ b, Listening (after E clientId maxRetries (es1 ++ .call (.subscribe cb code) :: a)).g code b) →
      aget code (after E clientId maxRetries (es1 ++ .call (.subscribe cb code) :: p)).g.table.1 = some u.set) (fun _ => h0) ?_ p
    intro l ev ih hl
    have hl0 := ih (fun a c e => hl a (c ++ [ev]) (by rw [e]; simp))
    obtain ⟨b, s, l', hs, _, _⟩ := hl (l ++ [ev]) [] (by simp)
    have e0 : es1 ++ Ev.call (.subscribe cb code) :: (l ++ [ev]) = (es1 ++ .call (.subscribe cb code) :: l) ++ [ev] := by simp
    rw [e0] at hs ⊢
    change aget code (Gw.table _).1 = some s at hs
    rcases table_event E clientId maxRetries (es1 ++ .call (.subscribe cb code) :: l) ev with e | ⟨cb', code', _, e⟩ | ⟨v, _, e⟩ <;> rw [e] at hs ⊢
    · exact hl0
    · rw [aget_add]
      split
      · rename_i ec
        subst ec
        rw [hl0]
        rfl
      · exact hl0
    · rw [hs, ← aget_del hs, hl0]
  exact key es2 hp

theorem gone_set {es : List Ev} {code s : Nat} (hl : s < (after E clientId maxRetries es).g.table.2.length)
    (hn : aget code (after E clientId maxRetries es).g.table.1 = none) (es2 : List Ev) :
    aget code (after E clientId maxRetries (es ++ es2)).g.table.1 ≠ some s := by
  have key : s < (after E clientId maxRetries (es ++ es2)).g.table.2.length ∧
      aget code (after E clientId maxRetries (es ++ es2)).g.table.1 ≠ some s := by
    refine snoc_ind (P := fun l => s < (after E clientId maxRetries (es ++ l)).g.table.2.length ∧
      aget code (after E clientId maxRetries (es ++ l)).g.table.1 ≠ some s) (by simp [hl, hn]) ?_ es2
    intro l ev ih
    show s < (after E clientId maxRetries (es ++ (l ++ [ev]))).g.table.2.length ∧
      aget code (after E clientId maxRetries (es ++ (l ++ [ev]))).g.table.1 ≠ some s
    rw [← List.append_assoc]
    rcases table_event E clientId maxRetries (es ++ l) ev with e | ⟨cb', code', _, e⟩ | ⟨v, _, e⟩ <;> rw [e]
    · exact ih
    · refine ⟨?_, ?_⟩
      · simp only [Table.add]
        split
        · simpa using ih.1
        · simp only [List.length_append, List.length_singleton]
          exact Nat.lt_succ_of_lt ih.1
      · rw [aget_add]
        split
        · rename_i ec
          subst ec
          intro hx
          cases ha : aget code (after E clientId maxRetries (es ++ l)).g.table.1 with
          | some i =>
            rw [ha] at hx
            exact ih.2 (ha.trans hx)
          | none =>
            rw [ha] at hx
            have := ih.1
            simp only [Option.getD_none, Option.some.injEq] at hx
            omega
        · exact ih.2
    · exact ⟨by rw [len_del]; exact ih.1, fun hx => ih.2 (aget_del hx)⟩
  exact key.2

/-- **C45**, the part that holds: calling an unsubscribe function removes its pair, if its code has had a listener all the
time since the subscription. -/
theorem C45_unsubscribe_partial (es1 : List Ev) (cb code : Nat) (es2 : List Ev) (u : Sub)
    (h : Honest E clientId maxRetries (es1 ++ .call (.subscribe cb code) :: es2)) (hr : Returns E clientId maxRetries es1 cb code es2 u)
    (hp : ∀ p q, es2 = p ++ q → ∃ b, Listening (after E clientId maxRetries (es1 ++ .call (.subscribe cb code) :: p)).g code b)
    (c b : Nat) :
    Listening (after E clientId maxRetries (es1 ++ .call (.subscribe cb code) :: (es2 ++ [.unsubscribe u]))).g c b ↔
      Listening (after E clientId maxRetries (es1 ++ .call (.subscribe cb code) :: es2)).g c b ∧ ¬ (c = code ∧ b = cb) := by
  obtain ⟨h1, h2, _, ho⟩ := returned_own E clientId maxRetries ((h.left E clientId maxRetries).inv E clientId maxRetries) hr
  have e : es1 ++ Ev.call (.subscribe cb code) :: (es2 ++ [.unsubscribe u]) =
      (es1 ++ .call (.subscribe cb code) :: es2) ++ [.unsubscribe u] := by simp
  rw [e, listening_table, table_unsubscribe, listening_table, (inv_del (h.inv E clientId maxRetries) ho).2]
  rw [h1, h2, current_set E clientId maxRetries h hr hp]
  simp

/-- **C45**: if the code has been without listeners at some time since the subscription, the function has no effect on
the listeners, whatever has been subscribed since. -/
theorem C45_stale_partial (es1 : List Ev) (cb code : Nat) (es2 : List Ev) (u : Sub)
    (h : Honest E clientId maxRetries (es1 ++ .call (.subscribe cb code) :: es2)) (hr : Returns E clientId maxRetries es1 cb code es2 u)
    (p q : List Ev) (hpq : es2 = p ++ q)
    (hp : ∀ b, ¬ Listening (after E clientId maxRetries (es1 ++ .call (.subscribe cb code) :: p)).g code b)
    (c b : Nat) :
    Listening (after E clientId maxRetries (es1 ++ .call (.subscribe cb code) :: (es2 ++ [.unsubscribe u]))).g c b ↔
      Listening (after E clientId maxRetries (es1 ++ .call (.subscribe cb code) :: es2)).g c b := by
  obtain ⟨h1, h2, hag, ho⟩ := returned_own E clientId maxRetries ((h.left E clientId maxRetries).inv E clientId maxRetries) hr
  subst hpq
  have e : es1 ++ Ev.call (.subscribe cb code) :: ((p ++ q) ++ [.unsubscribe u]) =
      (es1 ++ .call (.subscribe cb code) :: (p ++ q)) ++ [.unsubscribe u] := by simp
  have e2 : es1 ++ Ev.call (.subscribe cb code) :: (p ++ q) = (es1 ++ .call (.subscribe cb code) :: p) ++ q := by simp
  have hop : (after E clientId maxRetries (es1 ++ .call (.subscribe cb code) :: p)).g.table.Own u.code u.set := by
    rw [call_snoc]
    refine own_keeps E clientId maxRetries ?_ p
    have hh : Honest E clientId maxRetries (es1 ++ [.call (.subscribe cb code)]) := by
      rw [call_snoc] at h
      exact h.left E clientId maxRetries
    have hi := hh.inv E clientId maxRetries
    obtain ⟨l, hl, _⟩ := hi.ref _ _ hag
    exact ⟨(List.getElem?_eq_some_iff.1 hl).1, fun c hc => (hi.inj _ _ _ hc hag).trans h1.symm⟩
  have hip : (after E clientId maxRetries (es1 ++ .call (.subscribe cb code) :: p)).g.table.Inv := by
    rw [e2] at h
    exact (h.left E clientId maxRetries).inv E clientId maxRetries
  have hnone : aget code (after E clientId maxRetries (es1 ++ .call (.subscribe cb code) :: p)).g.table.1 = none := by
    cases ha : aget code (after E clientId maxRetries (es1 ++ .call (.subscribe cb code) :: p)).g.table.1 with
    | none => rfl
    | some s =>
      obtain ⟨l, hl, hne⟩ := hip.ref _ _ ha
      obtain ⟨x, hx⟩ := List.exists_mem_of_ne_nil l hne
      exact absurd ⟨s, l, ha, hl, hx⟩ (hp x)
  have hg := gone_set E clientId maxRetries hop.1 hnone q
  rw [e, listening_table, table_unsubscribe, listening_table, (inv_del (h.inv E clientId maxRetries) ho).2, h1, e2]
  constructor
  · exact fun x => x.1
  · exact fun x => ⟨x, fun y => hg y.2.2⟩

/-- **C45**: nothing else changes the listeners. -/
theorem C45_only (es : List Ev) (ev : Ev) (h1 : ∀ cb code, ev ≠ .call (.subscribe cb code)) (h2 : ∀ u, ev ≠ .unsubscribe u) (c b : Nat) :
    Listening (after E clientId maxRetries (es ++ [ev])).g c b ↔ Listening (after E clientId maxRetries es).g c b := by
  rw [listening_table, table_other E clientId maxRetries es ev h1 h2, listening_table]

/-- A new gateway has no listeners. -/
theorem C45_initial (c b : Nat) : ¬ Listening (after E clientId maxRetries []).g c b := by
  rintro ⟨s, l, h, _⟩
  cases h

theorem unsubscribe_id {g : Gw} {u : Sub} (h : ∀ l, g.sets[u.set]? = some l → u.cb ∉ l) : g.unsubscribe u = g := by
  simp only [Gw.unsubscribe]
  split
  · rename_i l hl
    rw [if_neg (h l hl)]
  · rfl

/-- **C45**, the part that holds: calling an unsubscribe function again has no effect at all (on anything), as long as its
pair has not been subscribed again. -/
theorem C45_again_partial (es1 : List Ev) (cb code : Nat) (es2 : List Ev) (u : Sub)
    (h : Honest E clientId maxRetries (es1 ++ .call (.subscribe cb code) :: es2)) (hr : Returns E clientId maxRetries es1 cb code es2 u)
    (es3 : List Ev) (h3 : Ev.call (.subscribe cb code) ∉ es3)
    (hh : Honest E clientId maxRetries (es1 ++ .call (.subscribe cb code) :: (es2 ++ .unsubscribe u :: es3))) :
    after E clientId maxRetries (es1 ++ .call (.subscribe cb code) :: (es2 ++ .unsubscribe u :: (es3 ++ [.unsubscribe u]))) =
      after E clientId maxRetries (es1 ++ .call (.subscribe cb code) :: (es2 ++ .unsubscribe u :: es3)) := by
  obtain ⟨h1, h2, _, ho⟩ := returned_own E clientId maxRetries ((h.left E clientId maxRetries).inv E clientId maxRetries) hr
  have e : ∀ l, es1 ++ Ev.call (.subscribe cb code) :: (es2 ++ .unsubscribe u :: l) =
      ((es1 ++ .call (.subscribe cb code) :: es2) ++ [.unsubscribe u]) ++ l := by intro l; simp
  rw [e, e, ← List.append_assoc, after_snoc]
  rw [e] at hh
  have key : ∀ l, Honest E clientId maxRetries (((es1 ++ .call (.subscribe cb code) :: es2) ++ [.unsubscribe u]) ++ l) →
      Ev.call (.subscribe cb code) ∉ l →
      ∀ s, (after E clientId maxRetries (((es1 ++ .call (.subscribe cb code) :: es2) ++ [.unsubscribe u]) ++ l)).g.table.2[u.set]? = some s → cb ∉ s := by
    intro l
    refine snoc_ind (P := fun l => Honest E clientId maxRetries (((es1 ++ .call (.subscribe cb code) :: es2) ++ [.unsubscribe u]) ++ l) →
      Ev.call (.subscribe cb code) ∉ l →
      ∀ s, (after E clientId maxRetries (((es1 ++ .call (.subscribe cb code) :: es2) ++ [.unsubscribe u]) ++ l)).g.table.2[u.set]? = some s → cb ∉ s) ?_ ?_ l
    · intro _ _ s hs
      rw [List.append_nil, table_unsubscribe] at hs
      simp only [Table.del] at hs
      split at hs
      · rename_i l hl
        split at hs
        · rename_i hm
          simp only [List.getElem?_set, ho.1, if_true, Option.some.injEq] at hs
          subst hs
          rw [h2, List.Nodup.mem_erase_iff ((h.inv E clientId maxRetries).nodup _ _ hl)]
          exact fun x => x.1 rfl
        · rename_i hm
          rw [hl] at hs
          cases hs
          rw [← h2]; exact hm
      · rename_i hl
        rw [hl] at hs
        cases hs
    · intro l ev ih hhl hl s hs
      rw [← List.append_assoc] at hs hhl
      have hh0 := hhl.left E clientId maxRetries
      have ih := ih hh0 (fun x => hl (by simp [x]))
      have hi := hh0.inv E clientId maxRetries
      have hown : (after E clientId maxRetries (((es1 ++ .call (.subscribe cb code) :: es2) ++ [.unsubscribe u]) ++ l)).g.table.Own u.code u.set := by
        rw [List.append_assoc]
        exact own_keeps E clientId maxRetries ho _
      rcases table_event E clientId maxRetries (((es1 ++ .call (.subscribe cb code) :: es2) ++ [.unsubscribe u]) ++ l) ev with
        e | ⟨cb', code', hev, e⟩ | ⟨v, _, e⟩ <;> rw [e] at hs
      · exact ih s hs
      · rw [sets_add hi] at hs
        split at hs
        · rename_i hsl
          have hne : ¬ (code' = code ∧ cb' = cb) := by
            rintro ⟨rfl, rfl⟩
            exact hl (by simp [hev])
          have hlt := hown.1
          cases hl0 : (after E clientId maxRetries (((es1 ++ .call (.subscribe cb code) :: es2) ++ [.unsubscribe u]) ++ l)).g.table.2[u.set]? with
          | none =>
            rw [List.getElem?_eq_none_iff] at hl0
            omega
          | some l0 =>
            have hcc : code' = code := by
              have := slot_set hi (code := code') (hsl ▸ hl0)
              rw [← hsl] at this
              exact (hown.2 _ this).trans h1
            rw [hl0] at hs
            simp only [Option.some.injEq] at hs
            subst hs
            have := ih _ hl0
            split
            · exact this
            · simp only [List.mem_append, List.mem_singleton, not_or]
              exact ⟨this, fun x => hne ⟨hcc, x.symm⟩⟩
        · exact ih s hs
      · simp only [Table.del] at hs
        split at hs
        · rename_i l0 hl0
          split at hs
          · rw [List.getElem?_set] at hs
            split at hs
            · rename_i he
              split at hs
              · cases hs
                intro x
                exact ih l0 (he ▸ hl0) (List.mem_of_mem_erase x)
              · cases hs
            · exact ih s hs
          · exact ih s hs
        · exact ih s hs
  have hk := key es3 hh h3
  change Sys.mk _ _ = _
  rw [unsubscribe_id (fun s hs => by rw [h2]; exact hk s hs)]

end

/-! ### Concrete cases -/

/-- Connected without a configuration; callback 7 has subscribed to status messages, and the adapter has acknowledged. -/
def sub7Evs : List Ev := bareConnectEvs ++ .call (.subscribe 7 12500) :: (reply 0 4 12523 [] ++ [.resume 1])

/-- Decidable form of "has returned this function". -/
def gotSub (r : Option (Except PyErr Res)) (u : Sub) : Bool :=
  match r with
  | some (.ok (.sub (some v))) => v.code == u.code && v.set == u.set && v.cb == u.cb
  | _ => false

theorem gotSub_eq {r : Option (Except PyErr Res)} {u : Sub} (h : gotSub r u = true) : r = some (.ok (.sub (some u))) := by
  unfold gotSub at h
  split at h
  · rename_i v
    simp only [Bool.and_eq_true, beq_iff_eq] at h
    obtain ⟨⟨h1, h2⟩, h3⟩ := h
    cases v; cases u
    simp only at h1 h2 h3
    subst h1 h2 h3
    rfl
  · cases h

/-- The hypotheses of the C45 theorems are met: the call returned a function, in an honest history, and the callback
listens. -/
theorem C45_witness : Returns sampleEnv 1 3 bareConnectEvs 7 12500 (reply 0 4 12523 [] ++ [.resume 1]) ⟨12500, 0, 7⟩ ∧
    Honest sampleEnv 1 3 sub7Evs ∧ Listening (after sampleEnv 1 3 sub7Evs).g 12500 7 := by
  refine ⟨gotSub_eq (by decide +kernel), ?_, 0, [7], ?_, ?_, by simp⟩
  · intro pre u post e
    have : Ev.unsubscribe u ∈ sub7Evs := by rw [e]; simp
    simp [sub7Evs, bareConnectEvs, loginEvs, noConfigEvs, reply] at this
  · decide +kernel
  · decide +kernel

/-- Later callback 8 subscribes too, 7 unsubscribes, and subscribes again. -/
def resubEvs : List Ev := sub7Evs ++ [.call (.subscribe 8 12500), .unsubscribe ⟨12500, 0, 7⟩, .call (.subscribe 7 12500)]

/-- **C45** (full reading), refuted: calling an unsubscribe function a second time can remove a later subscription of the
same callback, for which another function was returned. -/
theorem C45_refuted : Honest sampleEnv 1 3 (resubEvs ++ [.unsubscribe ⟨12500, 0, 7⟩]) ∧
    Listening (after sampleEnv 1 3 resubEvs).g 12500 7 ∧
    ¬ Listening (after sampleEnv 1 3 (resubEvs ++ [.unsubscribe ⟨12500, 0, 7⟩])).g 12500 7 := by
  refine ⟨?_, ⟨0, [8, 7], ?_, ?_, by simp⟩, ?_⟩
  · have h1 : Returns sampleEnv 1 3 bareConnectEvs 7 12500 (reply 0 4 12523 [] ++ [.resume 1] ++ [.call (.subscribe 8 12500)]) ⟨12500, 0, 7⟩ :=
      gotSub_eq (by decide +kernel)
    have h2 : Returns sampleEnv 1 3 bareConnectEvs 7 12500 (reply 0 4 12523 [] ++ [.resume 1] ++
        [.call (.subscribe 8 12500), .unsubscribe ⟨12500, 0, 7⟩, .call (.subscribe 7 12500)]) ⟨12500, 0, 7⟩ := gotSub_eq (by decide +kernel)
    intro pre u post e
    have e1 : resubEvs ++ [.unsubscribe ⟨12500, 0, 7⟩] =
        (bareConnectEvs ++ .call (.subscribe 7 12500) :: (reply 0 4 12523 [] ++ [.resume 1] ++ [.call (.subscribe 8 12500)])) ++
        [.unsubscribe ⟨12500, 0, 7⟩, .call (.subscribe 7 12500), .unsubscribe ⟨12500, 0, 7⟩] := by
      simp [resubEvs, sub7Evs]
    rw [e1] at e
    have hn : ∀ v, Ev.unsubscribe v ∉ bareConnectEvs ++ .call (.subscribe 7 12500) :: (reply 0 4 12523 [] ++ [.resume 1] ++ [.call (.subscribe 8 12500)]) := by
      intro v hv
      simp [bareConnectEvs, loginEvs, noConfigEvs, reply] at hv
    rcases List.append_eq_append_iff.1 e with ⟨a, ha, hb⟩ | ⟨a, ha, hb⟩
    · -- the unsubscription is one of the last three events
      rcases a with _ | ⟨a0, a⟩
      · simp only [List.nil_append, List.cons.injEq, Ev.unsubscribe.injEq] at hb
        obtain ⟨rfl, _⟩ := hb
        rw [List.append_nil] at ha
        exact ⟨_, _, _, _, ha, h1⟩
      · rcases a with _ | ⟨a1, a⟩
        · simp at hb
        · rcases a with _ | ⟨a2, a⟩
          · simp only [List.cons_append, List.nil_append, List.cons.injEq, Ev.unsubscribe.injEq] at hb
            obtain ⟨rfl, rfl, rfl, _⟩ := hb
            refine ⟨_, _, _, _, ?_, h2⟩
            rw [ha]
            simp
          · simp at hb
    · -- or before
      rcases a with _ | ⟨a0, a⟩
      · simp only [List.nil_append, List.cons.injEq, Ev.unsubscribe.injEq] at hb
        obtain ⟨rfl, _⟩ := hb
        rw [List.append_nil] at ha
        exact ⟨_, _, _, _, ha.symm, h1⟩
      · simp only [List.cons_append, List.cons.injEq] at hb
        exact absurd (by rw [ha, hb.1]; simp) (hn u)
  · decide +kernel
  · decide +kernel
  · rintro ⟨s, l, h1, h2, h3⟩
    have e1 : aget 12500 (after sampleEnv 1 3 (resubEvs ++ [.unsubscribe ⟨12500, 0, 7⟩])).g.listeners = some 0 := by decide +kernel
    rw [e1] at h1
    cases h1
    have e2 : (after sampleEnv 1 3 (resubEvs ++ [.unsubscribe ⟨12500, 0, 7⟩])).g.sets[0]? = some [8] := by decide +kernel
    rw [e2] at h2
    cases h2
    simp at h3

end SL
