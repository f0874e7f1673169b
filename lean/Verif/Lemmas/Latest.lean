import Verif.Lemmas.Prompt
import Verif.Props.GrowthProps
/-!
# What a part of a history does to the data
-/
set_option linter.unusedVariables false
set_option maxRecDepth 20000
namespace SL

theorem MadeOn.mono {f : String → Except PyErr Rat} {M M' : Decoder → Bytes → Prop} (hM : ∀ D b, M D b → M' D b) {d0 d : Val}
    (h : MadeOn f M d0 d) : MadeOn f M' d0 d := by
  induction h with
  | refl => exact .refl
  | step D b hm _ ih => exact .step D b (hM D b hm) ih

theorem MadeOn.trans {f : String → Except PyErr Rat} {M : Decoder → Bytes → Prop} {d0 d1 d2 : Val} (h : MadeOn f M d0 d1) (h' : MadeOn f M d1 d2) :
    MadeOn f M d0 d2 := by
  induction h' with
  | refl => exact h
  | step D b hm _ ih => exact .step D b hm ih

/-- Task `t` has been handed a reply for decoder `D` after its first `n` actions. -/
def Handed (t n : Nat) (g : Gw) (D : Decoder) (m : Bytes) : Prop :=
  ∃ c code payload before l, Queries D code payload ∧ g.acts t = before ++ .ask c code payload :: .got (.ok (some m)) :: l ∧ n ≤ before.length + 1

theorem Handed.more {t n : Nat} {g g' : Gw} {l : List Act} (h : g'.acts t = g.acts t ++ l) {D : Decoder} {m : Bytes} (hh : Handed t n g D m) :
    Handed t n g' D m := by
  obtain ⟨c, code, p, b, l', hq, e, hn⟩ := hh
  exact ⟨c, code, p, b, l' ++ l, hq, by rw [h, e]; simp, hn⟩

theorem upd_data {E : Env} {t : Nat} {h : List Act} {g g' : Gw} (hu : Upd E t h g g') : g'.data = g.data ∨
    ∃ (D : Decoder) (code : Int) (payload : Except PyErr Bytes) (b : Bytes), D.query = some (code, payload) ∧ JustGot h code payload (some b) ∧
      g'.data = (decodeWith (D.prog E.pyFloat) b g.data).2 := by
  cases hu with
  | data D code payload b hq hg hb => exact .inr ⟨D, code, payload, b, hq, hg, rfl⟩
  | listen cb code => exact .inl (addListener_data g _ _)
  | _ => exact .inl rfl

section
variable {E : Env}

/-- Running a task on. -/
theorem settle_latest {U : Prop} {X : List Act → Val → Prop} {I : List Act → Prop} (t n : Nat) (d0 : Val) :
    ∀ (co : Co Res) (g : Gw) (b : Prop), Steps (mon E U X I) t co g → co.Prompt b → (b → n < (g.acts t).length) → n ≤ (g.acts t).length →
      MadeOn E.pyFloat (Handed t n g) d0 g.data →
      MadeOn E.pyFloat (Handed t n (settle t co g).2) d0 (settle t co g).2.data
  | .ret a, g, b, _, w, hb, hn, h => h
  | .throw e, g, b, _, w, hb, hn, h => h
  | .get k, g, b, s, w, hb, hn, h => settle_latest t n d0 (k g) g b s (w g) hb hn h
  | .upd f k, g, b, s, w, hb, hn, h => by
    have hacts : (g.apply f).acts t = g.acts t := rfl
    refine settle_latest t n d0 k (g.apply f) b s.2 w.2 hb hn ?_
    rcases w.1 with hb' | hd
    · rcases upd_data (show Upd E t (g.acts t) g (g.apply f) from s.1) with e | ⟨D, code, payload, m, hq, ⟨h0, c, p, ha, hp⟩, e⟩
      · rw [e]; exact h
      · rw [e]
        refine .step D m ?_ h
        refine ⟨c, code, p, h0, [], query_queries hq hp, by rw [hacts, ha], ?_⟩
        have := hb hb'
        rw [ha] at this
        simp at this
        omega
    · have e : (g.apply f).data = g.data := hd g
      rw [e]; exact h
  | .request c code data r k, g, b, s, w, hb, hn, h => by
    have ha : (g.ask t c code data r).2.acts t = g.acts t ++ [.ask c code data] := acts_ask_same g t c code data r
    have hd : (g.ask t c code data r).2.data = g.data := rfl
    have h1 : MadeOn E.pyFloat (Handed t n (g.ask t c code data r).2) d0 (g.ask t c code data r).2.data := by
      rw [hd]; exact h.mono (fun D m => Handed.more ha)
    simp only [settle]
    split
    · rename_i o ho
      have ha' := acts_note_same (g.ask t c code data r).2 t (.got o)
      refine settle_latest t n d0 (k o) _ True (s.2 o ho) (w o) (fun _ => ?_) ?_ (h1.mono (fun D m => Handed.more ha'))
      · rw [ha', ha]; simp; omega
      · rw [ha', ha]; simp; omega
    · exact h1
  | .openConn r k, g, b, s, w, hb, hn, h => h.mono (fun D m => Handed.more (acts_note_same g t _))
  | .sleep k, g, b, s, w, hb, hn, h => h
  | .close c force k, g, b, s, w, hb, hn, h => by
    have ha := acts_close_same g t c force
    have hd : (g.startClose t c force).2.data = g.data := rfl
    have h1 : MadeOn E.pyFloat (Handed t n (g.startClose t c force).2) d0 (g.startClose t c force).2.data := by
      rw [hd]; exact h.mono (fun D m => Handed.more ha)
    simp only [settle]
    split
    · rename_i hc
      exact settle_latest t n d0 (k _) _ False (s.2 hc) (w _) False.elim (by rw [ha]; simp; omega) h1
    · exact h1
  | .acquire k, g, b, s, w, hb, hn, h => by
    simp only [settle]
    split
    · rename_i hc
      exact settle_latest t n d0 (k _) _ False (s hc) (w _) False.elim hn h
    · exact h

/-- The rest of a task reads replies at once. -/
def Task.Prompt : Task → Prop
  | .request _ _ k => ∀ o, (k o).Prompt True
  | .opening _ k => ∀ o, (k o).Dry
  | .sleeping k => ∀ o, (k o).Dry
  | .closing _ _ k => ∀ o, (k o).Dry
  | .locked k => ∀ o, (k o).Dry
  | .done r => True

theorem settle_prompt (t : Nat) : ∀ (co : Co Res) (g : Gw) (b : Prop), co.Prompt b → (settle t co g).1.Prompt
  | .ret a, g, b, w => trivial
  | .throw e, g, b, w => trivial
  | .get k, g, b, w => settle_prompt t (k g) g b (w g)
  | .upd f k, g, b, w => settle_prompt t k (g.apply f) b w.2
  | .request c code data r k, g, b, w => by
    simp only [settle]
    split
    · exact settle_prompt t _ _ _ (w _)
    · exact w
  | .openConn r k, g, b, w => w
  | .sleep k, g, b, w => w
  | .close c force k, g, b, w => by
    simp only [settle]
    split
    · exact settle_prompt t _ _ _ (w _)
    · exact w
  | .acquire k, g, b, w => by
    simp only [settle]
    split
    · exact settle_prompt t _ _ _ (w _)
    · exact w

/-- Every task reads replies at once. -/
def Sys.Prompt (s : Sys) : Prop := ∀ (t : Nat) (x : Task), s.tasks[t]? = some x → x.Prompt

/-- What a step reads. -/
def ReadStep (g g' : Gw) (ev : Ev) (D : Decoder) (m : Bytes) : Prop :=
  HandedBetween g g' D m ∨ ∃ c code, ev = .handle c ∧ KnownPush code D ∧ NextPush g c code m

theorem spawned_prompt {g : Gw} {ev : Ev} {co : Co Res} {g0 : Gw} (h : Spawned E g ev co g0) : co.Dry := by
  cases h with
  | call a => exact dry_call E a
  | ping c => exact dry_ping
  | unsub h => exact dry_unsub

theorem handler_data (g : Gw) (c : Nat) : (g.runHandler E c).data = g.data ∨
    ∃ D code m, KnownPush code D ∧ NextPush g c code m ∧ (g.runHandler E c).data = (decodeWith (D.prog E.pyFloat) m g.data).2 := by
  simp only [Gw.runHandler]
  split
  · rename_i x hx
    split
    · rename_i h msg hs
      split
      · rename_i hh
        simp only [Gw.commonCallback]
        split
        · rename_i D hD
          right
          refine ⟨D, h / 2, msg, pushDecoder_push hD, ⟨x, hx, ?_⟩, ?_⟩
          · rw [hs, commonHandler]; congr 2; omega
          · split
            · rename_i d hd
              rw [hd]
              simp only [Gw.commonCallback.notify]
              split <;> rfl
            · rename_i er d hd
              rw [hd]
        · left
          simp only [Gw.commonCallback.notify]
          split <;> rfl
      · exact .inl rfl
    · exact .inl rfl
  · exact .inl rfl

/-- A task that waits for a reply goes on when it is handed the reply. -/
theorem own_step_request {M : Mon} (hM : M.Good) {Q : List Act → Except PyErr Res → Gw → Prop} {t : Nat} {s : Sys} (ev : Ev)
    (ho : ev.own t = true) (h : TaskOk M Q t s) {c r : Nat} {k : Except PyErr (Option Bytes) → Co Res} (hk : s.tasks[t]? = some (.request c r k)) :
    s.step E ev = s ∨ ∃ o, s.step E ev = s.put t (settle t (k o) (s.g.note t (.got o))) ∧ M.I ((s.g.note t (.got o)).acts t) ∧
      (k o).wp M t Q ((s.g.note t (.got o)).acts t) (s.g.note t (.got o)) := by
  obtain ⟨hI, h⟩ := h
  cases ev with
  | opened t' ok =>
    have : t' = t := by simpa [Ev.own] using ho
    subst this
    left
    simp only [Sys.step, hk]
  | resume t' =>
    have : t' = t := by simpa [Ev.own] using ho
    subst this
    simp only [Sys.step, hk]
    split
    · rename_i o ho
      right
      have h := h _ hk
      simp only [TaskGoes] at h
      refine ⟨o, rfl, ?_, ?_⟩
      · rw [acts_note_same]
        exact (h _ _ (hM.refl _ _)).1
      · rw [acts_note_same]
        exact (h _ _ (hM.refl _ _)).2
    · exact .inl rfl
  | cancel t' =>
    have : t' = t := by simpa [Ev.own] using ho
    subst this
    left
    simp only [Sys.step, hk]
  | _ => simp [Ev.own] at ho

/-- Outside the tasks only handlers change the data. -/
theorem env_data {s : Sys} {ev : Ev} (ho : ¬ ∃ t, t < s.tasks.length ∧ ev.own t = true) (hh : ∀ c, ev ≠ .handle c)
    {g' : Gw} (he : s.step E ev = { s with g := g' }) : g'.data = s.g.data := by
  have hl : (s.step E ev).tasks.length = s.tasks.length := by rw [he]
  have hg : g' = (s.step E ev).g := by rw [he]
  rw [hg]
  have out : ∀ t, ev.own t = true → s.tasks[t]? = none := fun t h =>
    List.getElem?_eq_none_iff.2 (Nat.le_of_not_lt (fun hlt => ho ⟨t, hlt, h⟩))
  have sp : ∀ (s' : Sys) (co : Co Res), s'.tasks = s.tasks → (s'.spawn co).tasks.length = s.tasks.length → False := by
    intro s' co h1 h2
    simp [Sys.spawn, h1] at h2
  cases ev with
  | call a => exact (sp s _ rfl hl).elim
  | setMaxRetries n =>
    simp only [Sys.step, Gw.setMaxRetries]
    split <;> rfl
  | unsubscribe u =>
    simp only [Sys.step, Gw.unsubscribe]
    repeat' split
    all_goals first | rfl | (simp only [Gw.dropCode]; repeat' split) <;> rfl
  | registerHandler code h =>
    simp only [Sys.step]
    split <;> rfl
  | removeHandler code =>
    simp only [Sys.step]
    split <;> rfl
  | opened t ok => simp only [Sys.step, out t (by simp [Ev.own])]
  | resume t => simp only [Sys.step, out t (by simp [Ev.own])]
  | cancel t => simp only [Sys.step, out t (by simp [Ev.own])]
  | net c e =>
    simp only [Sys.step]
    split
    · simp only [Gw.lostCallback, Gw.net]
      repeat' split
      all_goals rfl
    · rfl
  | handle c => exact absurd rfl (hh c)
  | ping c =>
    simp only [Sys.step] at hl ⊢
    repeat' split
    all_goals first | rfl | skip
    all_goals (exfalso; revert hl; simp only [*, Sys.spawn]; simp)
  | runUnsub =>
    simp only [Sys.step] at hl ⊢
    split
    · rename_i h
      rw [if_pos h] at hl
      exact (sp { g := s.g.takeUnsub, tasks := s.tasks } _ rfl hl).elim
    · rfl
  | tick now => rfl

theorem Sys.Prompt.step {s : Sys} (hs : SysOk E False s) (h : s.Prompt) (ev : Ev) :
    (s.step E ev).Prompt ∧ MadeOn E.pyFloat (ReadStep s.g (s.step E ev).g ev) s.g.data (s.step E ev).g.data := by
  have hM := mon_good E False noX (fun _ => True)
  by_cases ho : ∃ t, t < s.tasks.length ∧ ev.own t = true
  · obtain ⟨t, ht, ho⟩ := ho
    have key : s.step E ev = s ∨ ∃ (co : Co Res) (g0 : Gw) (b : Prop), s.step E ev = s.put t (settle t co g0) ∧
        Steps (mon E False noX (fun _ => True)) t co g0 ∧ co.Prompt b ∧ (b → (s.g.acts t).length < (g0.acts t).length) ∧
        (s.g.acts t).length ≤ (g0.acts t).length ∧ g0.data = s.g.data := by
      by_cases hk : ∃ c r k, s.tasks[t]? = some (.request c r k)
      · obtain ⟨c, r, k, hk⟩ := hk
        rcases own_step_request (E := E) hM ev ho (hs.tasks t ht) hk with he | ⟨o, he, hI, hwp⟩
        · exact .inl he
        · refine .inr ⟨_, _, True, he, (settle_ok hM _ _ hI hwp).2, h t _ hk o, fun _ => ?_, ?_, rfl⟩
          · rw [acts_note_same]; simp
          · rw [acts_note_same]; simp
      · rcases own_step_next E hM (Q := fun _ _ _ => True) ev (fun r hi => afterOpen_ok hc_true hs.inv trivial r trivial) ho (hs.tasks t ht) with
          he | ⟨co, g0, hr, he, hI, hwp, hn⟩
        · exact .inl he
        · refine .inr ⟨co, g0, False, he, (settle_ok hM _ _ hI hwp).2, ?_, False.elim, ?_, ?_⟩
          · cases hn with
            | opened hk => exact Co.dry_bindE (dry_afterOpen E _ _) (h t _ hk)
            | opening hk => exact h t _ hk _
            | request hk' => exact absurd ⟨_, _, _, hk'⟩ hk
            | sleeping hk => exact h t _ hk _
            | closing hk => exact h t _ hk _
            | locked hk => exact h t _ hk _
          · cases hr with
            | got o ho => rw [acts_note_same]; simp
            | _ => exact Nat.le_refl _
          · cases hr <;> rfl
    rcases key with he | ⟨co, g0, b, he, hst, hc, hb, hl, hd0⟩
    · rw [he]; exact ⟨h, .refl⟩
    · have hm := settle_latest t (s.g.acts t).length s.g.data co g0 b hst hc hb hl (by rw [hd0]; exact .refl)
      rw [he]
      refine ⟨fun t' x hx => ?_, hm.mono (fun D m ⟨c, code, p, bf, l, h1, h2, h3⟩ => .inl ⟨t, c, code, p, bf, l, h1, h2, h3⟩)⟩
      simp only [Sys.put, List.getElem?_set] at hx
      split at hx
      · rename_i e
        subst e
        cases hx; exact settle_prompt _ co g0 b hc
      · exact h t' x hx
  · rcases step_cases E s ev with ⟨t, co, g0, ho', ht, hr, he⟩ | ⟨co, g0, hp, he⟩ | ⟨g', hg, he⟩
    · exact absurd ⟨t, ht, ho'⟩ ho
    · have hg0 : g0.data = s.g.data := by cases hp <;> rfl
      have hc := spawned_prompt hp
      have ha : g0.acts s.tasks.length = s.g.acts s.tasks.length := by rw [Gw.acts, hp.log]; rfl
      have hst := (settle_ok hM (Q := fun _ _ _ => True) co g0 trivial (spawn_wp hs (fun u => u.elim) hp)).2
      have hm := settle_latest s.tasks.length (s.g.acts s.tasks.length).length s.g.data co g0 False hst hc False.elim (by rw [ha]; exact Nat.le_refl _)
        (by rw [hg0]; exact .refl)
      rw [he]
      refine ⟨fun t' x hx => ?_, hm.mono (fun D m ⟨c, code, p, bf, l, h1, h2, h3⟩ => .inl ⟨_, c, code, p, bf, l, h1, h2, h3⟩)⟩
      simp only [Sys.spawn, List.getElem?_append] at hx
      split at hx
      · exact h t' x hx
      · rw [List.getElem?_singleton] at hx
        split at hx
        · cases hx; exact settle_prompt _ co g0 False hc
        · cases hx
    · rw [he]
      refine ⟨h, ?_⟩
      by_cases hv : ∃ c, ev = .handle c
      · obtain ⟨c, rfl⟩ := hv
        have : g' = s.g.runHandler E c := (congrArg Sys.g he).symm
        subst this
        rcases handler_data (E := E) s.g c with e | ⟨D, code, m, h1, h2, e⟩
        · exact e ▸ .refl
        · show MadeOn _ _ _ (s.g.runHandler E c).data
          rw [e]
          exact .step D m (.inr ⟨c, code, rfl, h1, h2⟩) .refl
      · show MadeOn _ _ _ g'.data
        rw [env_data ho (fun c e => hv ⟨c, e⟩) he]
        exact .refl

end
end SL
