import Verif.Lemmas.Eager
import Verif.Lemmas.Attach
/-!
# What a call does with the reply it is handed
-/
set_option linter.unusedVariables false
set_option maxRecDepth 20000
namespace SL

/-- No reply has been handed over in these actions. -/
def NoGot (l : List Act) : Prop := ∀ m, Act.got (.ok (some m)) ∉ l

theorem noGot_nil : NoGot [] := fun m h => by cases h
theorem noGot_app {l l' : List Act} (h : NoGot l) (h' : NoGot l') : NoGot (l ++ l') := fun m hm => (List.mem_append.1 hm).elim (h m) (h' m)

/-- The rest of a task decodes replies at once. -/
def Task.Eager (E : Env) (h : List Act) : Task → Prop
  | .request _ _ k => ∃ h0 c code data, h = h0 ++ [.ask c code data] ∧ (∀ o, (k o).Eager E) ∧ Owes E code data k
  | .opening _ k => (∀ o, (k o).Eager E) ∧ Passes k ∧ ∀ o, (k o).Dry
  | .sleeping k => ∀ o, (k o).Eager E
  | .closing _ _ k => ∀ o, (k o).Eager E
  | .locked k => ∀ o, (k o).Eager E
  | .done r => True

section
variable {E : Env}

/-- While it runs no reply is handed to it, and it goes on decoding replies at once. -/
theorem settle_eager (t : Nat) : ∀ (co : Co Res) (g : Gw), co.Eager E →
    (settle t co g).1.Eager E ((settle t co g).2.acts t) ∧ ∃ l, (settle t co g).2.acts t = g.acts t ++ l ∧ NoGot l
  | .ret a, g, w => ⟨trivial, [], by simp [settle], noGot_nil⟩
  | .throw e, g, w => ⟨trivial, [], by simp [settle], noGot_nil⟩
  | .get k, g, w => settle_eager t (k g) g (w g)
  | .upd f k, g, w => settle_eager t k (g.apply f) w
  | .request c code data r k, g, w => by
    have ha : (g.ask t c code data r).2.acts t = g.acts t ++ [.ask c code data] := acts_ask_same g t c code data r
    simp only [settle]
    split
    · rename_i o ho
      obtain ⟨h1, l, h2, h3⟩ := settle_eager t (k o) ((g.ask t c code data r).2.note t (.got o)) (w.1 o)
      refine ⟨h1, [.ask c code data, .got o] ++ l, ?_, noGot_app ?_ h3⟩
      · rw [h2, acts_note_same, ha]; simp
      · intro m hm
        have : o = .ok (some m) := by simpa [eq_comm] using hm
        subst this
        have := ask_now ho
        cases this
    · exact ⟨⟨_, _, _, _, ha, w.1, w.2⟩, _, ha, by intro m hm; simp at hm⟩
  | .openConn r k, g, w => ⟨w, _, acts_note_same g t _, by intro m hm; simp at hm⟩
  | .sleep k, g, w => ⟨w, [], by simp [settle], noGot_nil⟩
  | .close c force k, g, w => by
    have ha := acts_close_same g t c force
    have hn : NoGot [Act.cls c force] := by intro m hm; simp at hm
    simp only [settle]
    split
    · obtain ⟨h1, l, h2, h3⟩ := settle_eager t (k ((g.startClose t c force).2.closeResult c (g.startClose t c force).1)) (g.startClose t c force).2 (w _)
      exact ⟨h1, [.cls c force] ++ l, by rw [h2, ha]; simp, noGot_app hn h3⟩
    · exact ⟨w, _, ha, hn⟩
  | .acquire k, g, w => by
    simp only [settle]
    split
    · exact settle_eager t (k (.ok ())) (g.take t) (w _)
    · exact ⟨w, [], by simp [Gw.setWaiters, Gw.acts], noGot_nil⟩

theorem settle_fails (t : Nat) {e : PyErr} : ∀ (co : Co Res) (g : Gw), co.Fails e g → (settle t co g).1 = .done (.error e)
  | .ret a, g, w => w.elim
  | .throw e', g, w => by
    have : e' = e := w
    subst this; rfl
  | .get k, g, w => settle_fails t (k g) g w
  | .upd f k, g, w => settle_fails t k (g.apply f) w.2
  | .request _ _ _ _ k, g, w => w.elim
  | .openConn _ k, g, w => w.elim
  | .sleep k, g, w => w.elim
  | .close _ _ k, g, w => w.elim
  | .acquire k, g, w => w.elim

/-- The reply it owes to decode is decoded at once. -/
theorem settle_debt {U : Prop} {X : List Act → Val → Prop} {I : List Act → Prop} (t : Nat) {code : Int} {payload b : Bytes} :
    ∀ (co : Co Res) (g : Gw), Steps (mon E U X I) t co g → co.Debt E code payload b g → co.Eager E →
      ∃ D g1 k, Queries D code payload ∧ g1.data = (decodeWith (D.prog E.pyFloat) b g.data).2 ∧ g1.acts t = g.acts t ∧
        settle t co g = settle t k g1 ∧ k.Dry ∧ k.Eager E ∧ Steps (mon E U X I) t k g1 ∧
        ∀ e, e.isComm = false → (decodeWith (D.prog E.pyFloat) b g.data).1 = .error e → (settle t co g).1 = .done (.error e)
  | .ret a, g, s, w, he => w.elim
  | .throw e', g, s, w, he => w.elim
  | .get k, g, s, w, he => settle_debt t (k g) g s w (he g)
  | .upd f k, g, s, ⟨D, h1, h2, h3, h4⟩, he => ⟨D, g.apply f, k, h1, h2, rfl, rfl, h3, he, s.2, fun e hc hx => settle_fails t k _ (h4 e hc hx)⟩
  | .request _ _ _ _ k, g, s, w, he => w.elim
  | .openConn _ k, g, s, w, he => w.elim
  | .sleep k, g, s, w, he => w.elim
  | .close _ _ k, g, s, w, he => w.elim
  | .acquire k, g, s, w, he => w.elim

theorem made_none {f : String → Except PyErr Rat} {M : Decoder → Bytes → Prop} (hM : ∀ D b, ¬ M D b) {d0 d : Val} (h : MadeOn f M d0 d) : d = d0 := by
  cases h with
  | refl => rfl
  | step D b hm _ => exact (hM D b hm).elim

/-- Running a task that is not handed a reply changes no data. -/
theorem settle_calm {U : Prop} {X : List Act → Val → Prop} {I : List Act → Prop} (t : Nat) (co : Co Res) (g : Gw)
    (s : Steps (mon E U X I) t co g) (hd : co.Dry) (he : co.Eager E) : (settle t co g).2.data = g.data := by
  have h := settle_latest t (g.acts t).length g.data co g False s hd False.elim (Nat.le_refl _) .refl
  refine made_none ?_ h
  rintro D m ⟨c, code, p, bf, l, -, e, hn⟩
  obtain ⟨-, l2, h2, h3⟩ := settle_eager t co g he
  rw [h2] at e
  apply h3 m
  have hx : (g.acts t ++ l2)[bf.length + 1]? = some (.got (.ok (some m))) := by rw [e]; simp
  rw [List.getElem?_append_right hn] at hx
  exact List.mem_of_getElem? hx

/-- What a step does to a task that decodes replies at once. -/
structure EagerStep (E : Env) (s s' : Sys) (t : Nat) : Prop where
  tasks : ∃ x', s'.tasks[t]? = some x' ∧ x'.Eager E (s'.g.acts t)
  acts : ∃ l, s'.g.acts t = s.g.acts t ++ l ∧ (NoGot l ∨ ∃ h0 c code payload o l', s.g.acts t = h0 ++ [.ask c code payload] ∧
    l = .got o :: l' ∧ NoGot l' ∧ s.result t = none ∧ ∀ x xs D, o = .ok (some (x :: xs)) → Queries D code payload → ∃ D, Queries D code payload ∧
      s'.g.data = (decodeWith (D.prog E.pyFloat) (x :: xs) s.g.data).2 ∧
      ∀ e, e.isComm = false → (decodeWith (D.prog E.pyFloat) (x :: xs) s.g.data).1 = .error e → s'.tasks[t]? = some (.done (.error e)))

theorem put_self {s : Sys} {t : Nat} (ht : t < s.tasks.length) (p : Task × Gw) : (s.put t p).tasks[t]? = some p.1 := by
  simp [Sys.put, ht]

theorem eager_step {s : Sys} (hs : SysOk E False s) (hp : s.Prompt) (ev : Ev) {t : Nat} {x : Task} (hx : s.tasks[t]? = some x)
    (he : x.Eager E (s.g.acts t)) : EagerStep E s (s.step E ev) t := by
  have hM := mon_good E False noX (fun _ => True)
  have ht : t < s.tasks.length := by
    obtain ⟨h, -⟩ := List.getElem?_eq_some_iff.1 hx
    exact h
  have same : ∀ s' : Sys, s'.tasks[t]? = s.tasks[t]? → s'.g.acts t = s.g.acts t → EagerStep E s s' t := by
    intro s' h1 h2
    exact ⟨⟨x, by rw [h1, hx], by rw [h2]; exact he⟩, [], by rw [h2]; simp, .inl noGot_nil⟩
  have run : ∀ (co : Co Res) (g0 : Gw), s.step E ev = s.put t (settle t co g0) → g0.acts t = s.g.acts t → co.Eager E → EagerStep E s (s.step E ev) t := by
    intro co g0 h1 h2 h3
    obtain ⟨h4, l, h5, h6⟩ := settle_eager t co g0 h3
    rw [h1]
    exact ⟨⟨_, put_self ht _, h4⟩, l, by rw [← h2]; exact h5, .inl h6⟩
  by_cases ho : ev.own t = true
  · by_cases hk : ∃ c r k, s.tasks[t]? = some (.request c r k)
    · obtain ⟨c, r, k, hk⟩ := hk
      rw [hx] at hk
      cases hk
      obtain ⟨h0, c', code, data, ha, hk1, hk2⟩ := he
      rcases own_step_request (E := E) hM ev ho (hs.tasks t ht) hx with e | ⟨o, e, hI, hwp⟩
      · rw [e]; exact same s rfl rfl
      · have hst := (settle_ok hM _ _ hI hwp).2
        have hacts : (s.g.note t (.got o)).acts t = s.g.acts t ++ [.got o] := acts_note_same _ _ _
        obtain ⟨h4, l, h5, h6⟩ := settle_eager t (k o) (s.g.note t (.got o)) (hk1 o)
        rw [e]
        refine ⟨⟨_, put_self ht _, h4⟩, .got o :: l, ?_, .inr ⟨h0, c', code, data, o, l, ha, rfl, h6, by simp [Sys.result, hx], ?_⟩⟩
        · show (settle t (k o) (s.g.note t (.got o))).2.acts t = _
          rw [h5, hacts]; simp
        · rintro y ys D rfl hq
          obtain ⟨D', g1, k', q1, q2, q3, q4, q5, q6, q7, q8⟩ := settle_debt t _ _ hst (hk2 ⟨D, hq⟩ y ys _) (hk1 _)
          refine ⟨D', q1, ?_, fun e hc hx => ?_⟩
          · show (settle t (k (.ok (some (y :: ys)))) (s.g.note t (.got (.ok (some (y :: ys)))))).2.data = _
            rw [q4, settle_calm t k' g1 q7 q5 q6, q2]
            rfl
          · rw [put_self ht, q8 e hc hx]
    · rcases own_step_next E hM (Q := fun _ _ _ => True) ev (fun r hi => afterOpen_ok hc_true hs.inv trivial r trivial) ho (hs.tasks t ht) with
        e | ⟨co, g0, hr, e, hI, hwp, hn⟩
      · rw [e]; exact same s rfl rfl
      · have hg : g0.acts t = s.g.acts t := by
          cases hr with
          | got o ho' =>
            obtain ⟨c, r, -, k, hk'⟩ := ho'
            exact absurd ⟨c, r, k, hk'⟩ hk
          | _ => rfl
        refine run co g0 e hg ?_
        cases hn with
        | opened hk' => rw [hx] at hk'; cases hk'; exact Co.eager_bindE he.2.1 he.2.2 he.1 _ (keen_afterOpen E _ _).1
        | opening hk' => rw [hx] at hk'; cases hk'; exact he.1 _
        | request hk' => exact absurd ⟨_, _, _, hk'⟩ hk
        | sleeping hk' => rw [hx] at hk'; cases hk'; exact he _
        | closing hk' => rw [hx] at hk'; cases hk'; exact he _
        | locked hk' => rw [hx] at hk'; cases hk'; exact he _
  · obtain ⟨h1, h2⟩ := step_other_task E s ev ht (by simpa using ho)
    exact same _ h1 h2

end
end SL
