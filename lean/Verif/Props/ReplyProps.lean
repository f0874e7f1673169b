import Verif.Lemmas.Reply
import Verif.Lemmas.Raw
import Verif.Props.LatestProps
import Verif.Props.LivenessProps
/-!
# C111: no reply is passed over
-/
set_option linter.unusedVariables false
set_option maxRecDepth 20000
namespace SL

/-- Two pumps are asked for with different messages. -/
theorem pump_payload_unique {i j : Int} {p : Bytes} (h : packObjs [.int 0, .int i] = .ok p) (h' : packObjs [.int 0, .int j] = .ok p) : i = j := by
  have key : ∀ n : Int, packObjs [.int 0, .int n] = .ok p → ∃ k : Nat, n = k ∧ k < 256 ^ 4 ∧ p = [0, 0, 0, 0] ++ leBytes 4 k := by
    intro n hn
    by_cases hc : 0 ≤ n ∧ n < 256 ^ 4
    · refine ⟨n.toNat, by omega, by omega, ?_⟩
      have e1 : packU 4 n = .ok (leBytes 4 n.toNat) := if_pos hc
      have e0 : packU 4 0 = .ok [0, 0, 0, 0] := by decide +kernel
      have hp : (do let a ← packU 4 0; let b ← (do let a ← packU 4 n; let b ← (Except.ok [] : Except PyErr Bytes); return a ++ b); return a ++ b : Except PyErr Bytes) = .ok p := hn
      rw [e0, e1] at hp
      simp [bind, Except.bind, pure, Except.pure] at hp
      rw [← hp]
      simp
    · exfalso
      have e1 : packU 4 n = .error .structError := if_neg hc
      have e0 : packU 4 0 = .ok [0, 0, 0, 0] := by decide +kernel
      have hp : (do let a ← packU 4 0; let b ← (do let a ← packU 4 n; let b ← (Except.ok [] : Except PyErr Bytes); return a ++ b); return a ++ b : Except PyErr Bytes) = .ok p := hn
      rw [e0, e1] at hp
      cases hp
  obtain ⟨k, rfl, hk, e⟩ := key i h
  obtain ⟨k', rfl, hk', e'⟩ := key j h'
  have e2 : leBytes 4 k = leBytes 4 k' := List.append_cancel_left (e.symm.trans e')
  have := congrArg leVal e2
  rw [leVal_leBytes_of_lt hk, leVal_leBytes_of_lt hk'] at this
  rw [this]

/-- A request is a query for one kind of answer only. -/
theorem queries_unique {D D' : Decoder} {code : Int} {p : Bytes} (h : Queries D code p) (h' : Queries D' code p) :
    D = D' ∨ ∃ n n', D = .dateTime n ∧ D' = .dateTime n' := by
  generalize hc : code = c at h'
  cases h <;> cases h' <;> first | exact .inl rfl | (cases hc; done) | skip
  · rename_i i hi j hj
    rw [pump_payload_unique hi hj]
    exact .inl rfl
  · exact .inr ⟨_, _, rfl, rfl⟩

theorem raised_stays {E : Env} {s : Sys} {t : Nat} {r : Except PyErr Res} (h : s.result t = some r) (es : List Ev) : (s.run E es).result t = some r := by
  have : s.tasks[t]? = some (.done r) := by
    simp only [Sys.result] at h
    split at h
    · rename_i hx; cases h; exact hx
    · cases h
  have := done_forever E es this
  simp [Sys.result, this]

section
variable (E : Env) (clientId maxRetries : Int)

/-- A call that is no `async_send_message` decodes replies at once, always. -/
theorem reach_eager (es : List Ev) (a : Call) (ha : ∀ code data, a ≠ .send code data) (es2 : List Ev) :
    ∃ x, (after E clientId maxRetries (es ++ .call a :: es2)).tasks[callTask E clientId maxRetries es]? = some x ∧
      x.Eager E (actsOf E clientId maxRetries es a es2) := by
  refine snoc_ind (P := fun l => ∃ x, (after E clientId maxRetries (es ++ .call a :: l)).tasks[callTask E clientId maxRetries es]? = some x ∧
      x.Eager E (actsOf E clientId maxRetries es a l)) ?_ ?_ es2
  · unfold actsOf
    rw [after_snoc]
    obtain ⟨h1, -⟩ := settle_eager (callTask E clientId maxRetries es) (a.co E) (after E clientId maxRetries es).g (keen_call E a ha).1
    exact ⟨_, by simp [Sys.step, Sys.spawn, callTask], h1⟩
  · intro l ev ⟨x, hx, he⟩
    have hok : SysOk E False (after E clientId maxRetries (es ++ .call a :: l)) := (SysOk.init E False clientId maxRetries).run _ (fun u => u.elim)
    have hst := (eager_step hok (reach_prompt E clientId maxRetries _) ev hx he).tasks
    rw [← after_snoc] at hst
    unfold actsOf
    have e : es ++ .call a :: (l ++ [ev]) = (es ++ .call a :: l) ++ [ev] := by simp
    rw [e]
    exact hst

theorem reply_step (es : List Ev) (a : Call) (ha : ∀ code data, a ≠ .send code data) (l : List Ev) (ev : Ev) :
    EagerStep E (after E clientId maxRetries (es ++ .call a :: l)) (after E clientId maxRetries (es ++ .call a :: (l ++ [ev])))
      (callTask E clientId maxRetries es) := by
  obtain ⟨x, hx, he⟩ := reach_eager E clientId maxRetries es a ha l
  have hok : SysOk E False (after E clientId maxRetries (es ++ .call a :: l)) := (SysOk.init E False clientId maxRetries).run _ (fun u => u.elim)
  have hst := eager_step hok (reach_prompt E clientId maxRetries _) ev hx he
  rw [← after_snoc] at hst
  have e : es ++ .call a :: (l ++ [ev]) = (es ++ .call a :: l) ++ [ev] := by simp
  rw [e]
  exact hst

/-- **C111** (one at a time).  A reply a call has been handed was handed to it by one event, right after which the request was the last thing it had done. -/
theorem C111_when (es : List Ev) (a : Call) (ha : ∀ code data, a ≠ .send code data) (es2 : List Ev) (h0 : List Act) (c : Nat) (code : Int)
    (payload m : Bytes) (l : List Act) (h : actsOf E clientId maxRetries es a es2 = h0 ++ .ask c code payload :: .got (.ok (some m)) :: l) :
    ∃ p rest, es2 = p ++ rest ∧ HandedNow E clientId maxRetries es a p code payload m := by
  revert l
  refine snoc_ind (P := fun es2 => ∀ l, actsOf E clientId maxRetries es a es2 = h0 ++ .ask c code payload :: .got (.ok (some m)) :: l →
    ∃ p rest, es2 = p ++ rest ∧ HandedNow E clientId maxRetries es a p code payload m) ?_ ?_ es2
  · intro l h
    exfalso
    unfold actsOf at h
    rw [after_snoc] at h
    obtain ⟨-, l2, h1, h2⟩ := settle_eager (callTask E clientId maxRetries es) (a.co E) (after E clientId maxRetries es).g (keen_call E a ha).1
    have hok : SysOk E False (after E clientId maxRetries es) := (SysOk.init E False clientId maxRetries).run _ (fun u => u.elim)
    have h3 : (after E clientId maxRetries es).g.acts (callTask E clientId maxRetries es) = [] := hok.log.fresh
    rw [h3] at h1
    have h4 : ((after E clientId maxRetries es).step E (.call a)).g = (settle (callTask E clientId maxRetries es) (a.co E) (after E clientId maxRetries es).g).2 := rfl
    rw [h4, h1] at h
    apply h2 m
    rw [List.nil_append] at h
    rw [h]; simp
  · intro es2 ev ih l h
    obtain ⟨l2, h1, h2⟩ := (reply_step E clientId maxRetries es a ha es2 ev).acts
    have h1 : actsOf E clientId maxRetries es a (es2 ++ [ev]) = actsOf E clientId maxRetries es a es2 ++ l2 := h1
    by_cases hl : h0.length + 2 ≤ (actsOf E clientId maxRetries es a es2).length
    · have e : actsOf E clientId maxRetries es a es2 = (h0 ++ [.ask c code payload, .got (.ok (some m))]) ++
          (actsOf E clientId maxRetries es a es2).drop (h0.length + 2) := by
        have e1 := List.take_append_drop (h0.length + 2) (actsOf E clientId maxRetries es a es2)
        have e2 : (actsOf E clientId maxRetries es a es2).take (h0.length + 2) = (h0 ++ [.ask c code payload, .got (.ok (some m))]) := by
          rw [← List.take_append_of_le_length hl (l₂ := l2), ← h1, h]
          rw [show h0 ++ .ask c code payload :: .got (.ok (some m)) :: l = (h0 ++ [.ask c code payload, .got (.ok (some m))]) ++ l by simp]
          exact List.take_left' (by simp)
        rw [← e2, e1]
      obtain ⟨p, rest, e1, e2⟩ := ih ((actsOf E clientId maxRetries es a es2).drop (h0.length + 2)) (by rw [List.append_assoc] at e; exact e)
      exact ⟨p, rest ++ [ev], by rw [e1]; simp, e2⟩
    · have hin : Act.got (.ok (some m)) ∈ l2 ∧ ∀ o l', l2 = .got o :: l' → NoGot l' → actsOf E clientId maxRetries es a es2 = h0 ++ [.ask c code payload] ∧ l2 = .got (.ok (some m)) :: l := by
        have hx : (actsOf E clientId maxRetries es a es2 ++ l2)[h0.length + 1]? = some (.got (.ok (some m))) := by
          rw [← h1, h]; simp
        rw [List.getElem?_append_right (by omega)] at hx
        refine ⟨List.mem_of_getElem? hx, ?_⟩
        rintro o l' rfl hn
        have hlen : h0.length + 1 - (actsOf E clientId maxRetries es a es2).length = 0 := by
          refine Classical.byContradiction (fun hne => ?_)
          obtain ⟨k, hk⟩ := Nat.exists_eq_succ_of_ne_zero hne
          rw [hk] at hx
          exact hn m (List.mem_of_getElem? (by simpa using hx))
        have e : actsOf E clientId maxRetries es a es2 ++ .got o :: l' = (h0 ++ [.ask c code payload]) ++ .got (.ok (some m)) :: l := by
          rw [← h1, h]; simp
        exact List.append_inj e (by simp; omega)
      rcases h2 with h2 | ⟨h0', c', code', payload', o, l', e1, e2, e3, -, -⟩
      · exact absurd hin.1 (h2 m)
      · obtain ⟨e4, e5⟩ := hin.2 o l' e2 e3
        exact ⟨es2 ++ [ev], [], by simp, es2, ev, h0, c, l, rfl, e4, h⟩

/-- **C111** (read at once).  Whenever a call other than `async_send_message` is handed a non-empty reply to a query, then by the time that event is
over the reply, and nothing else, has been read: the data are what reading it with the decoder of the query makes of the data as they were.  If the
decoder raises, the call raises that exception at once. -/
theorem C111_read (hf : ∀ t e, E.pyFloat t = .error e → e.isComm = false) (es : List Ev) (a : Call) (ha : ∀ code data, a ≠ .send code data) (pre : List Ev) (ev : Ev)
    (code : Int) (payload m : Bytes) (hm : m ≠ []) (h : HandedNow E clientId maxRetries es a (pre ++ [ev]) code payload m) (D : Decoder) (hD : Queries D code payload) :
    ∃ D, Queries D code payload ∧
      (after E clientId maxRetries (es ++ .call a :: (pre ++ [ev]))).g.data =
        (decodeWith (D.prog E.pyFloat) m (after E clientId maxRetries (es ++ .call a :: pre)).g.data).2 ∧
      ∀ e, (decodeWith (D.prog E.pyFloat) m (after E clientId maxRetries (es ++ .call a :: pre)).g.data).1 = .error e →
        EndsNow E clientId maxRetries es a (pre ++ [ev]) (.error e) := by
  obtain ⟨pre', ev', h0, c, l, e1, e2, e3⟩ := h
  obtain ⟨rfl, rfl⟩ : pre = pre' ∧ ev = ev' := by
    have := List.append_inj' e1 rfl
    exact ⟨this.1, by simpa using this.2⟩
  obtain ⟨l2, h1, h2⟩ := (reply_step E clientId maxRetries es a ha pre ev).acts
  have h1 : actsOf E clientId maxRetries es a (pre ++ [ev]) = actsOf E clientId maxRetries es a pre ++ l2 := h1
  rw [e3, e2, show h0 ++ .ask c code payload :: .got (.ok (some m)) :: l = (h0 ++ [.ask c code payload]) ++ .got (.ok (some m)) :: l by simp] at h1
  have h1 := List.append_cancel_left h1
  rcases h2 with h2 | ⟨h0', c', code', payload', o, l', e4, e5, -, e6, e7⟩
  · exact absurd (by rw [← h1]; simp) (h2 m)
  · have e4 : actsOf E clientId maxRetries es a pre = h0' ++ [.ask c' code' payload'] := e4
    rw [e2] at e4
    obtain ⟨-, e8⟩ := List.append_inj' e4 rfl
    obtain ⟨rfl, rfl, rfl⟩ : c = c' ∧ code = code' ∧ payload = payload' := by simpa using e8
    rw [e5] at h1
    obtain ⟨e9, -⟩ := List.cons.inj h1
    obtain rfl : o = .ok (some m) := by cases e9; rfl
    cases m with
    | nil => exact absurd rfl hm
    | cons x xs =>
      obtain ⟨D', q1, q2, q3⟩ := e7 x xs D rfl hD
      refine ⟨D', q1, q2, fun e he => ⟨?_, ?_⟩⟩
      · have hraw := rawE_decode (f := E.pyFloat) (fun s e he => by simp [PyErr.raw, hf s e he]) D' (x :: xs) (after E clientId maxRetries (es ++ .call a :: pre)).g.data e he
        have := q3 e (by simpa [PyErr.raw] using hraw) he
        show Sys.result _ _ = _
        simp [Sys.result, this]
      · intro p ev' hp
        obtain ⟨rfl, -⟩ := List.append_inj' hp rfl
        exact e6

/-- **C111** (shown at once).  Right after that event everything the reply tells is shown, or the call has just raised because the decoder did. -/
theorem C111_shown (hf : ∀ t e, E.pyFloat t = .error e → e.isComm = false) (es : List Ev) (a : Call) (ha : ∀ code data, a ≠ .send code data) (p : List Ev)
    (code : Int) (payload m : Bytes) (h : HandedNow E clientId maxRetries es a p code payload m) (D : Decoder) (hD : Queries D code payload)
    (q : Path) (v : Val) (hv : Tells D m q v) :
    (∃ v', Tells D m q v' ∧ Displays (after E clientId maxRetries (es ++ .call a :: p)).g.data q v') ∨
    ∃ e, e.isComm = false ∧ EndsNow E clientId maxRetries es a p (.error e) := by
  obtain ⟨pre, ev, h0, c, l, rfl, -, -⟩ := id h
  obtain ⟨D', hq, hd, he⟩ := C111_read E clientId maxRetries hf es a ha pre ev code payload m (tells_nonempty hv) h D hD
  have hr := C83_reachable E clientId maxRetries (es ++ .call a :: (pre ++ [ev]))
  cases hx : (decodeWith (D'.prog E.pyFloat) m (after E clientId maxRetries (es ++ .call a :: pre)).g.data).1 with
  | error e =>
    have hraw := rawE_decode (f := E.pyFloat) (fun s e he => by simp [PyErr.raw, hf s e he]) D' m (after E clientId maxRetries (es ++ .call a :: pre)).g.data e hx
    exact .inr ⟨e, by simpa [PyErr.raw] using hraw, he e hx⟩
  | ok u =>
    left
    have hdec : decodeWith (D'.prog E.pyFloat) m (after E clientId maxRetries (es ++ .call a :: pre)).g.data =
        (.ok (), (after E clientId maxRetries (es ++ .call a :: (pre ++ [ev]))).g.data) := Prod.ext hx hd.symm
    rcases queries_unique hD hq with rfl | ⟨n, n', rfl, rfl⟩
    · exact decoded_shown _ _ m hr hdec hv
    · obtain ⟨v', h1, h2⟩ := decoded_shown _ _ m hr hdec (tells_time (now' := n') hv)
      exact ⟨v', tells_time h1, h2⟩

/-- **C111** (a call that returns).  When a call returns normally, then of every reply it was handed on the way everything the reply tells was shown at once. -/
theorem C111_returns (hf : ∀ t e, E.pyFloat t = .error e → e.isComm = false) (es : List Ev) (a : Call) (ha : ∀ code data, a ≠ .send code data)
    (es2 : List Ev) (r : Res) (hr : resultOf E clientId maxRetries es a es2 = some (.ok r)) (p rest : List Ev) (he : es2 = p ++ rest)
    (code : Int) (payload m : Bytes) (h : HandedNow E clientId maxRetries es a p code payload m) (D : Decoder) (hD : Queries D code payload)
    (q : Path) (v : Val) (hv : Tells D m q v) :
    ∃ v', Tells D m q v' ∧ Displays (after E clientId maxRetries (es ++ .call a :: p)).g.data q v' := by
  rcases C111_shown E clientId maxRetries hf es a ha p code payload m h D hD q v hv with h | ⟨e, -, h⟩
  · exact h
  · exfalso
    have := raised_stays (E := E) h.1 rest
    subst he
    unfold resultOf at hr
    rw [show es ++ .call a :: (p ++ rest) = (es ++ .call a :: p) ++ rest by simp] at hr
    unfold after at hr this
    rw [sys_run_append, this] at hr
    cases hr

/-- **C111** (a call that returns, later).  At the end a documented reading shows what a reply of the call told, or what a message read since then tells, or it was
emptied by a message about that pump read since. -/
theorem C111_kept (hf : ∀ t e, E.pyFloat t = .error e → e.isComm = false) (es : List Ev) (a : Call) (ha : ∀ code data, a ≠ .send code data)
    (es2 : List Ev) (r : Res) (hr : resultOf E clientId maxRetries es a es2 = some (.ok r)) (p rest : List Ev) (he : es2 = p ++ rest)
    (code : Int) (payload m : Bytes) (h : HandedNow E clientId maxRetries es a p code payload m) (D : Decoder) (hD : Queries D code payload)
    (q : Path) (s : Sheet) (hs : sheet q = some s) (v : Val) (hv : Tells D m q v) :
    (∃ v', Tells D m q v' ∧ getValue false q (after E clientId maxRetries (es ++ .call a :: es2)).g.data = .ok v') ∨
    (∃ D' m' v', ReadIn E clientId maxRetries (es ++ .call a :: p) rest D' m' ∧ Tells D' m' q v' ∧
      getValue false q (after E clientId maxRetries (es ++ .call a :: es2)).g.data = .ok v') ∨
    ∃ i k m', q = [.s "pump", .i i, .s k] ∧ ReadIn E clientId maxRetries (es ++ .call a :: p) rest (.pump i) m' ∧
      getValue false q (after E clientId maxRetries (es ++ .call a :: es2)).g.data = .ok .null := by
  obtain ⟨v', h1, h2⟩ := C111_returns E clientId maxRetries hf es a ha es2 r hr p rest he code payload m h D hD q v hv
  subst he
  have h3 := C110_reading E clientId maxRetries (es ++ .call a :: p) rest q s hs
  rw [show es ++ .call a :: (p ++ rest) = (es ++ .call a :: p) ++ rest by simp]
  rcases h3 with h3 | h3 | h3
  · refine .inl ⟨v', h1, ?_⟩
    rcases h2 with h2 | ⟨id, rfl, -⟩
    · rw [h3, h2]
    · cases hs
  · exact .inr (.inl h3)
  · exact .inr (.inr h3)

end

/-- A chlorinator poll: its answer is handed to it by the last event and the salt reading is shown. -/
theorem C111_witness :
    HandedNow sampleEnv 1 1 connectEvs .getScg (reply 0 4 12573 sampleScg.enc ++ [.resume 1]) 12572 (leBytes 4 0) sampleScg.enc ∧
    Queries .scg 12572 (leBytes 4 0) ∧ Tells .scg sampleScg.enc [.s "scg", .s "sensor", .s "salt_ppm"] (.int 3000) ∧
    (sheet [.s "scg", .s "sensor", .s "salt_ppm"]).isSome = true ∧
    resultOf sampleEnv 1 1 connectEvs .getScg (reply 0 4 12573 sampleScg.enc ++ [.resume 1]) = some (.ok .none) ∧
    ∀ t e, sampleEnv.pyFloat t = .error e → e.isComm = false := by
  obtain ⟨h1, h2, h3, h4, -⟩ := C109_witness
  refine ⟨⟨reply 0 4 12573 sampleScg.enc, .resume 1, [], 0, [], rfl, by decide +kernel, by decide +kernel⟩, h3, h4, rfl, h1.1, ?_⟩
  intro t e h
  cases h

theorem handedNow_of {E : Env} {clientId maxRetries : Int} {es : List Ev} {a : Call} {pre : List Ev} {ev : Ev} {c : Nat} {code : Int} {payload m : Bytes} {l : List Act}
    (h : (actsOf E clientId maxRetries es a pre).getLast? = some (.ask c code payload))
    (h' : (actsOf E clientId maxRetries es a (pre ++ [ev])).drop (actsOf E clientId maxRetries es a pre).length = .got (.ok (some m)) :: l)
    (h0 : (actsOf E clientId maxRetries es a (pre ++ [ev])).take (actsOf E clientId maxRetries es a pre).length = actsOf E clientId maxRetries es a pre) :
    HandedNow E clientId maxRetries es a (pre ++ [ev]) code payload m := by
  obtain ⟨ys, e⟩ := List.getLast?_eq_some_iff.1 h
  refine ⟨pre, ev, ys, c, l, rfl, e, ?_⟩
  rw [← List.take_append_drop (actsOf E clientId maxRetries es a pre).length (actsOf E clientId maxRetries es a (pre ++ [ev])), h', h0, e]
  simp

/-- Connecting: the configuration arrives at the last event, and connecting returns True. -/
theorem C111_witness_connect :
    HandedNow sampleEnv 1 1 [] (.connect { ip := some "10.0.0.1" }) (loginEvs 0 0 ++ configEvs 0 0) 12532 [0, 0, 0, 0, 0, 0, 0, 0] sampleConfig.enc ∧
    Queries .config 12532 [0, 0, 0, 0, 0, 0, 0, 0] ∧
    resultOf sampleEnv 1 1 [] (.connect { ip := some "10.0.0.1" }) (loginEvs 0 0 ++ configEvs 0 0) = some (.ok (.bool true)) := by
  have e : loginEvs 0 0 ++ configEvs 0 0 = (loginEvs 0 0 ++ reply 0 3 12533 sampleConfig.enc) ++ [.resume 0] := by
    rw [configEvs, List.append_assoc]
  refine ⟨?_, .config, by decide +kernel⟩
  rw [e]
  exact handedNow_of (c := 0) (l := []) (by decide +kernel) (by decide +kernel) (by decide +kernel)

/-- A poll that is answered with too short a message: it raises at once. -/
theorem C111_witness_short :
    HandedNow sampleEnv 1 1 connectEvs .getScg (reply 0 4 12573 [1, 2, 3] ++ [.resume 1]) 12572 (leBytes 4 0) [1, 2, 3] ∧
    EndsNow sampleEnv 1 1 connectEvs .getScg (reply 0 4 12573 [1, 2, 3] ++ [.resume 1]) (.error .structError) :=
  ⟨⟨reply 0 4 12573 [1, 2, 3], .resume 1, [], 0, [], rfl, by decide +kernel, by decide +kernel⟩,
    endsNow_of (by decide +kernel) (by decide +kernel)⟩

end SL
