import Verif.Lemmas.ProtoInv
import Verif.Model.Gateway
set_option linter.unusedVariables false
/-!
# Request calls keep what they were made with
-/
namespace SL

/-- What a request call was made with. -/
def Req.sig (r : Req) : Int × Bytes × Int := (r.code, r.data, r.maxRetries)

theorem setReq_sig (w : World) {t : Nat} {r q : Req} (h : w.reqs[t]? = some r) (hs : q.sig = r.sig) :
    (w.setReq t q).reqs.map Req.sig = w.reqs.map Req.sig := by
  simp only [World.setReq, List.map_set]
  apply List.ext_getElem?
  intro i
  rw [List.getElem?_set]
  by_cases hi : t = i
  · subst hi
    have := lt_of_getElem? h
    have e : w.reqs[t] = r := by rw [List.getElem?_eq_getElem this] at h; exact Option.some.inj h
    simp [this, hs, e]
  · simp [hi]

theorem sig_endAttempt (r : Req) (e : PyErr) : (r.endAttempt e).sig = r.sig := by
  unfold Req.endAttempt; split <;> rfl
theorem sig_onCancelled (r : Req) (b : Bool) : (r.onCancelled b).sig = r.sig := by
  unfold Req.onCancelled; split <;> rfl
theorem sig_onResult (r : Req) (m : Msg) : (r.onResult m).sig = r.sig := by
  unfold Req.onResult
  split
  · rfl
  · split
    · rfl
    · exact sig_endAttempt ..
theorem sig_onTimeout (r : Req) (f : Option FutState) : (r.onTimeout f).sig = r.sig := by
  unfold Req.onTimeout
  split
  · exact sig_onResult ..
  · exact sig_endAttempt ..

theorem startAttempt_sig (w : World) {t : Nat} {r q : Req} (h : w.reqs[t]? = some r) (hs : q.sig = r.sig) :
    (w.startAttempt t q).reqs.map Req.sig = w.reqs.map Req.sig := by
  unfold World.startAttempt
  split
  · exact setReq_sig w h hs
  · split
    · exact setReq_sig w h hs
    · split
      · exact setReq_sig _ (r := r) h hs
      · dsimp only
        split
        · exact setReq_sig _ (r := r) h ((sig_onCancelled _ _).trans hs)
        · exact setReq_sig _ (r := r) h hs

/-- Only the library itself makes new calls. -/
theorem external_sig (w : World) (e : Event) (he : e.external = true) : (w.step e).reqs.map Req.sig = w.reqs.map Req.sig := by
  cases e <;> simp only [Event.external, Bool.false_eq_true] at he <;> simp only [World.step]
  case resume t =>
    split
    · rename_i r hr
      split
      · split
        · rfl
        · split
          · exact setReq_sig _ hr (sig_onCancelled ..)
          · split
            · exact setReq_sig _ hr (sig_onTimeout ..)
            · split
              · exact setReq_sig _ hr (sig_onResult ..)
              · exact setReq_sig _ hr (sig_onCancelled ..)
      · rfl
    · rfl
  case timeout t =>
    split
    · rename_i r hr
      split
      · exact setReq_sig _ (r := r) hr rfl
      · rfl
    · rfl
  case cancel t =>
    split
    · rename_i r hr
      split
      · exact setReq_sig _ (r := r) hr rfl
      · exact setReq_sig _ (r := r) hr rfl
      · exact setReq_sig _ (r := r) hr rfl
      · rfl
    · rfl
  case wake t =>
    split
    · rename_i r hr
      split
      · exact startAttempt_sig _ hr rfl
      · rfl
    · rfl
  case lost => split <;> rfl
  case cleanup => split <;> rfl
  case closeResume c => repeat' (first | rfl | split)
  case closeFinish c => repeat' (first | rfl | split)
  case closeCancel c => repeat' (first | rfl | split)


/-- Calls are never forgotten or changed. -/
theorem step_sig (w : World) (e : Event) : w.reqs.map Req.sig <+: (w.step e).reqs.map Req.sig := by
  by_cases he : e.external = true
  · rw [external_sig w e he]; exact List.prefix_refl _
  · cases e <;> simp only [Event.external, not_true, reduceCtorEq, not_false_eq_true] at he <;> simp only [World.step]
    case call => simp
    case run t =>
      split
      · rename_i r hr
        split
        · rw [startAttempt_sig _ hr rfl]; exact List.prefix_refl _
        · exact List.prefix_refl _
      · exact List.prefix_refl _
    case close force =>
      split
      · simp only [World.closeTail]
        exact List.prefix_refl _
      · exact List.prefix_refl _
    all_goals exact List.prefix_refl _

theorem run_sig (w : World) (es : List Event) : w.reqs.map Req.sig <+: (w.run es).reqs.map Req.sig := by
  induction es generalizing w with
  | nil => exact List.prefix_refl _
  | cons e es ih => exact (step_sig w e).trans (ih (w.step e))

/-- The request call made at an index stays the same. -/
theorem run_req (w : World) (es : List Event) {r : Nat} {q : Req} (h : w.reqs[r]? = some q) :
    ∃ q', (w.run es).reqs[r]? = some q' ∧ q'.sig = q.sig := by
  obtain ⟨l, hl⟩ := run_sig w es
  have h1 : (w.reqs.map Req.sig)[r]? = some q.sig := by rw [List.getElem?_map, h]; rfl
  have h2 : ((w.run es).reqs.map Req.sig)[r]? = some q.sig := by
    rw [← hl, List.getElem?_append_left (lt_of_getElem? h1)]; exact h1
  rw [List.getElem?_map] at h2
  cases hq : (w.run es).reqs[r]? with
  | none => rw [hq] at h2; cases h2
  | some q' => exact ⟨q', rfl, by rw [hq] at h2; exact Option.some.inj h2⟩

end SL
