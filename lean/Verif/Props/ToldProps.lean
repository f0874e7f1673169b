import Verif.Lemmas.Gains
import Verif.Props.ReplyProps
/-!
# C112: an update that returns shows what it was told
-/
set_option linter.unusedVariables false
set_option maxRecDepth 20000
namespace SL

section
variable (E : Env) (clientId maxRetries : Int)

theorem reach_gains {code : Int} {data : Bytes} (es : List Ev) (a : Call) (ha : (a.co E).Gains code data False) (es2 : List Ev) :
    ∃ x, (after E clientId maxRetries (es ++ .call a :: es2)).tasks[callTask E clientId maxRetries es]? = some x ∧
      x.Gains code data (actsOf E clientId maxRetries es a es2) := by
  refine snoc_ind (P := fun l => ∃ x, (after E clientId maxRetries (es ++ .call a :: l)).tasks[callTask E clientId maxRetries es]? = some x ∧
      x.Gains code data (actsOf E clientId maxRetries es a l)) ?_ ?_ es2
  · unfold actsOf
    rw [after_snoc]
    have h1 := settle_gains (callTask E clientId maxRetries es) (a.co E) (after E clientId maxRetries es).g False ha False.elim
    exact ⟨_, by simp [Sys.step, Sys.spawn, callTask], h1⟩
  · intro l ev ⟨x, hx, he⟩
    have hok : SysOk E False (after E clientId maxRetries (es ++ .call a :: l)) := (SysOk.init E False clientId maxRetries).run _ (fun u => u.elim)
    have hst := gains_step hok ev hx he
    rw [← after_snoc] at hst
    unfold actsOf
    have e : es ++ .call a :: (l ++ [ev]) = (es ++ .call a :: l) ++ [ev] := by simp
    rw [e]
    exact hst

/-- **C112** (answered).  When `async_update` returns normally, it has been answered each of these: the status, chemistry, chlorinator and clock queries. -/
theorem C112_answered (es es2 : List Ev) (r : Res) (hr : resultOf E clientId maxRetries es .update es2 = some (.ok r))
    (x : Int × Bytes) (hx : x ∈ [statusRequest, chemistryRequest, scgRequest, dateTimeRequest]) :
    ∃ h0 c reply l, actsOf E clientId maxRetries es .update es2 = h0 ++ .ask c x.1 x.2 :: .got (.ok reply) :: l := by
  obtain ⟨y, hy, hg⟩ := reach_gains E clientId maxRetries es .update (Co.gains_first (gains_update E hx)) es2
  have : y = .done (.ok r) := by
    simp only [resultOf, Sys.result] at hr
    rw [hy] at hr
    split at hr
    · rename_i h; cases h; cases hr; rfl
    · cases hr
  subst this
  exact hg

/-- **C112** (shown).  And if an answer is a message, everything it tells was shown as soon as it was handed over, and when the update returns a documented
reading shows what the answer told, or what a message read since then tells. -/
theorem C112_shown (hf : ∀ t e, E.pyFloat t = .error e → e.isComm = false) (es es2 : List Ev) (r : Res)
    (hr : resultOf E clientId maxRetries es .update es2 = some (.ok r)) (x : Int × Bytes) (hx : x ∈ [statusRequest, chemistryRequest, scgRequest, dateTimeRequest]) :
    ∃ h0 c reply l, actsOf E clientId maxRetries es .update es2 = h0 ++ .ask c x.1 x.2 :: .got (.ok reply) :: l ∧
      ∀ m, reply = some m → ∃ p rest, es2 = p ++ rest ∧ HandedNow E clientId maxRetries es .update p x.1 x.2 m ∧
        ∀ D q v, Queries D x.1 x.2 → Tells D m q v →
          (∃ v', Tells D m q v' ∧ Displays (after E clientId maxRetries (es ++ .call .update :: p)).g.data q v') ∧
          ∀ s, sheet q = some s →
            (∃ v', Tells D m q v' ∧ getValue false q (after E clientId maxRetries (es ++ .call .update :: es2)).g.data = .ok v') ∨
            ∃ D' m' v', ReadIn E clientId maxRetries (es ++ .call .update :: p) rest D' m' ∧ Tells D' m' q v' ∧
              getValue false q (after E clientId maxRetries (es ++ .call .update :: es2)).g.data = .ok v' := by
  obtain ⟨h0, c, reply, l, h⟩ := C112_answered E clientId maxRetries es es2 r hr x hx
  have ha : ∀ code data, Call.update ≠ .send code data := fun _ _ h => by cases h
  refine ⟨h0, c, reply, l, h, ?_⟩
  rintro m rfl
  obtain ⟨p, rest, he, hn⟩ := C111_when E clientId maxRetries es .update ha es2 h0 c x.1 x.2 m l h
  refine ⟨p, rest, he, hn, fun D q v hD hv => ⟨C111_returns E clientId maxRetries hf es .update ha es2 r hr p rest he x.1 x.2 m hn D hD q v hv, fun s hs => ?_⟩⟩
  rcases C111_kept E clientId maxRetries hf es .update ha es2 r hr p rest he x.1 x.2 m hn D hD q s hs v hv with h1 | h1 | ⟨i, k, m', rfl, -, -⟩
  · exact .inl h1
  · exact .inr h1
  · exfalso
    have hx1 : x.1 ∈ [(12526 : Int), 12592, 12572, 8110] := by
      simp only [List.mem_cons, List.not_mem_nil, or_false] at hx
      rcases hx with rfl | rfl | rfl | rfl <;> simp [statusRequest, chemistryRequest, scgRequest, dateTimeRequest]
    generalize x.1 = code at *
    generalize x.2 = data at *
    generalize hq : ([.s "pump", .i i, .s k] : Path) = q at hv
    cases hv with
    | fixed _ _ _ f _ hf _ =>
      subst hq
      cases D <;> simp [places, statusPlaces, configPlaces, scgPlaces, chemPlaces, timePlaces] at hf
    | pump => cases hD; simp at hx1
    | tail _ _ f _ n c _ _ hf _ => subst hq; simp [tailPlaces] at hf
    | _ => simp at hq

end

/-- The events of an update: the chlorinator answers, the other answers are empty. -/
def toldEvs : List Ev :=
  reply 0 4 12527 [] ++ [.resume 1] ++ reply 0 5 12585 [] ++ [.resume 1] ++ reply 0 6 12593 [] ++ [.resume 1] ++
    reply 0 7 12573 sampleScg.enc ++ [.resume 1] ++ reply 0 8 8111 [] ++ [.resume 1]

theorem salt_of {f : String → Except PyErr Rat} {d : Val} (hd : Reachable f d)
    (h : (match Val.look [.s "scg", .s "sensor", .s "salt_ppm", .s "value"] d with | some (.int n) => n == 3000 | _ => false) = true) :
    getValue false [.s "scg", .s "sensor", .s "salt_ppm"] d = .ok (.int 3000) := by
  split at h
  · rename_i n hn
    rw [look_value hd (q := [.s "scg", .s "sensor", .s "salt_ppm"]) hn]
    rw [beq_iff_eq] at h
    rw [h]
  · cases h

/-- Such an update returns; the answer was handed to it and its salt reading is shown at the end. -/
theorem C112_witness :
    resultOf sampleEnv 1 1 connectEvs .update toldEvs = some (.ok .none) ∧
    (∃ h0 l, actsOf sampleEnv 1 1 connectEvs .update toldEvs = h0 ++ .ask 0 12572 (leBytes 4 0) :: .got (.ok (some sampleScg.enc)) :: l) ∧
    Queries .scg 12572 (leBytes 4 0) ∧ Tells .scg sampleScg.enc [.s "scg", .s "sensor", .s "salt_ppm"] (.int 3000) ∧
    getValue false [.s "scg", .s "sensor", .s "salt_ppm"] (after sampleEnv 1 1 (connectEvs ++ .call .update :: toldEvs)).g.data = .ok (.int 3000) ∧
    scgRequest ∈ [statusRequest, chemistryRequest, scgRequest, dateTimeRequest] := by
  obtain ⟨-, -, h3, h4, -⟩ := C109_witness
  refine ⟨by decide +kernel, ⟨[.ask 0 12526 [0, 0, 0, 0], .got (.ok (some [])), .ask 0 12584 [0, 0, 0, 0, 0, 0, 0, 0], .got (.ok (some [])),
       .ask 0 12592 [0, 0, 0, 0], .got (.ok (some []))], [.ask 0 8110 [], .got (.ok (some []))], by decide +kernel⟩, h3, h4, salt_of (C83_reachable sampleEnv 1 1 _) (by decide +kernel), by simp⟩

end SL
