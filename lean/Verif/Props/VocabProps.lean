import Verif.Lemmas.Speaks
import Verif.Spec.Vocabulary
import Verif.Props.PhProps
/-!
# C87: everything the client sends is documented, or asked for by its user

`Says` (Spec/Vocabulary.lean) lists the messages; nothing else is ever requested or written, whatever the user, the
adapter and the network do.
-/
set_option linter.unusedVariables false

namespace SL

theorem words_ok {l : List Val} {b : Bytes} (ns : List Nat) (hl : l = ns.map (fun n : Nat => Val.int (n : Int))) (h : packObjs l = .ok b) :
    b = words ns := by
  obtain ⟨ms, e, -, rfl⟩ := packObjs_ok h
  rw [hl] at e
  have : ns = ms := by
    clear h hl
    induction ns generalizing ms with
    | nil => cases ms with
      | nil => rfl
      | cons => cases e
    | cons n ns ih =>
      cases ms with
      | nil => cases e
      | cons m ms =>
        simp only [List.map_cons, List.cons.injEq, Val.int.injEq] at e
        rw [ih ms e.2]
        congr 1
        omega
  rw [this]

theorem client_ok {id : Int} {b : Bytes} (h : packObjs [.int 0, .int id] = .ok b) : ∃ n : Nat, id = n ∧ n < 2 ^ 32 ∧ b = words [0, n] := by
  obtain ⟨ns, e, hlt, rfl⟩ := packObjs_ok h
  match ns, e, hlt with
  | [z, n], e, hlt =>
    simp only [List.map_cons, List.map_nil, List.cons.injEq, and_true, Val.int.injEq] at e
    obtain ⟨hz, rfl⟩ := e
    obtain rfl : z = 0 := by omega
    exact ⟨n, rfl, hlt n (by simp), rfl⟩

theorem vocab_says (id : Int) (es : List Ev) : Vocab (Says id es) id where
  challenge := .challenge
  login := .login
  ping := .ping
  version := .version
  dateTime := .dateTime
  status b h := by rw [words_ok [0] rfl h]; exact .status
  config b h := by rw [words_ok [0, 0] rfl h]; exact .config
  scg b h := by rw [words_ok [0] rfl h]; exact .scg
  chemistry b h := by rw [words_ok [0] rfl h]; exact .chemistry
  pump i hi b h := by rw [words_ok [0, i] rfl h]; exact .pump i hi
  addClient b h := by obtain ⟨n, h1, h2, rfl⟩ := client_ok h; exact .addClient n h1 h2
  removeClient b h := by obtain ⟨n, h1, h2, rfl⟩ := client_ok h; exact .removeClient n h1 h2

theorem Takes.given {arg : Val} {p : Path} {d v : Val} (h : Takes arg p d v) : arg ≠ .null → arg = v := by
  intro hn
  rcases h with h | h
  · exact h.2.symm
  · exact absurd h.1 hn

/-- What a setter makes of its arguments. -/
theorem setter_says (E : Env) (id : Int) {es : List Ev} {a : Call} (ha : Ev.call a ∈ es) {f : Val → Except PyErr (Int × Except PyErr Bytes)}
    (hf : setterPlan E a = some f) (d : Val) {code : Int} {data : Bytes} (hp : f d = .ok (code, .ok data)) : Says id es code data := by
  cases a with
  | setCircuit x y =>
    obtain ⟨n, s, rfl, rfl, -, hs, hn, rfl, rfl⟩ := circuit_plan x y hf d code data hp
    exact .setCircuit n s ha hn (by omega)
  | setHeatTemp x y =>
    obtain ⟨b, t, lo, hi, l, h, rfl, rfl, -, -, -, -, -, -, -, hb, ht, rfl, rfl⟩ := temp_plan x y hf d code data hp
    exact .setHeatTemp b t ha hb ht
  | setHeatMode x y =>
    obtain ⟨b, m, rfl, rfl, -, hm, hb, rfl, rfl⟩ := mode_plan x y hf d code data hp
    exact .setHeatMode b m ha hb (by omega)
  | setColorLights x =>
    obtain ⟨n, rfl, hn, rfl, rfl⟩ := lights_plan x hf d code data hp
    exact .setColorLights n ha hn
  | setScg x y z w =>
    obtain ⟨p, s, c, t, v, rfl, rfl, h1, h2, h3, h4, k1, k2, k3, k4, k5⟩ := scg_plan x y z w hf d code data hp
    exact .setScg x y z w ha p s c t k1.given k2.given k5.given h1 h2 h3 h4
  | setChem x y z w u v =>
    obtain ⟨n, o, c, t, y', l, v', q, rfl, rfl, -, -, ha1, hb1, -, hn, k1, o1, o2, k2, c1, c2, k3, t1, t2, k4, y1, y2, k5, l1, l2⟩ :=
      chem_plan x y z w u v hf d code data hp
    obtain ⟨j1, j2⟩ := ph_trunc ha1 hb1
    rw [← hn] at j1 j2
    exact .setChem x y z w u v ha n o c t y' l k1.given k2.given k3.given k4.given k5.given ⟨by omega, by omega⟩ ⟨o1, o2⟩ ⟨c1, c2⟩ ⟨t1, t2⟩ y2 ⟨l1, l2⟩
  | setDateTime date dst =>
    obtain ⟨t, n, rfl, rfl, hn, k, hd⟩ := date_plan date dst hf d code data hp
    refine .setDateTime date dst ha t n ?_ k.given hn
    intro t' ht
    rcases hd with hd | hd
    · rw [hd] at ht; exact Option.some.inj ht
    · rw [hd.1] at ht; cases ht
  | _ => cases hf

theorem Says.mono {id : Int} {es es' : List Ev} (h : ∀ e ∈ es, e ∈ es') {code : Int} {data : Bytes} (hs : Says id es code data) : Says id es' code data := by
  cases hs with
  | challenge => exact .challenge
  | login => exact .login
  | ping => exact .ping
  | version => exact .version
  | dateTime => exact .dateTime
  | status => exact .status
  | config => exact .config
  | scg => exact .scg
  | chemistry => exact .chemistry
  | pump i hi => exact .pump i hi
  | addClient n h1 h2 => exact .addClient n h1 h2
  | removeClient n h1 h2 => exact .removeClient n h1 h2
  | setCircuit a b h0 h1 h2 => exact .setCircuit a b (h _ h0) h1 h2
  | setHeatTemp a b h0 h1 h2 => exact .setHeatTemp a b (h _ h0) h1 h2
  | setHeatMode a b h0 h1 h2 => exact .setHeatMode a b (h _ h0) h1 h2
  | setColorLights a h0 h1 => exact .setColorLights a (h _ h0) h1
  | setScg a b c d h0 p s x t h1 h2 h3 h4 h5 h6 h7 => exact .setScg a b c d (h _ h0) p s x t h1 h2 h3 h4 h5 h6 h7
  | setChem a b c d e f h0 n o p t y l h1 h2 h3 h4 h5 h6 h7 h8 h9 h10 h11 =>
    exact .setChem a b c d e f (h _ h0) n o p t y l h1 h2 h3 h4 h5 h6 h7 h8 h9 h10 h11
  | setDateTime a b h0 t n h1 h2 h3 => exact .setDateTime a b (h _ h0) t n h1 h2 h3
  | byHand _ _ h0 => exact .byHand _ _ (h _ h0)

theorem after_says (E : Env) (clientId maxRetries : Int) (es : List Ev) : SysSays (Says clientId es) clientId (after E clientId maxRetries es) := by
  suffices h : ∀ pre suf : List Ev, SysSays (Says clientId pre) clientId (after E clientId maxRetries pre) →
      SysSays (Says clientId (pre ++ suf)) clientId (after E clientId maxRetries (pre ++ suf)) by
    refine h [] es ⟨?_, rfl, ?_, ?_⟩
    · intro x hx; cases hx
    · intro x hx; cases hx
    · intro t c code data hm; cases hm
  intro pre suf
  induction suf generalizing pre with
  | nil => intro h; rw [List.append_nil]; exact h
  | cons ev suf ih =>
    intro h
    rw [List.append_cons]
    refine ih (pre ++ [ev]) ?_
    rw [after_snoc]
    refine SysSays.step (E := E) (vocab_says clientId (pre ++ [ev])) (h.mono (fun _ _ hs => hs.mono (fun e he => List.mem_append_left _ he))) ev ?_
    rintro a rfl
    refine ⟨fun f hf d code data hp => setter_says E clientId (by simp) hf d hp, ?_⟩
    rintro code data rfl
    exact .byHand code data (by simp)

/-- **C87** Every request any task ever makes is one of the documented messages: the client's own, or a command its user gave, with the
values the user gave. -/
theorem C87_requests (E : Env) (clientId maxRetries : Int) (es : List Ev) (t c : Nat) (code : Int) (data : Bytes)
    (h : (t, Act.ask c code data) ∈ (after E clientId maxRetries es).g.log) : Says clientId es code data :=
  (after_says E clientId maxRetries es).g.log t c code data h

/-- **C87** Every packet ever written on any connection (after its first line) is a framed message of the documented ones, numbered by
its place on that connection. -/
theorem C87_wire (E : Env) (clientId maxRetries : Int) (es : List Ev) {x : Conn} (hx : x ∈ (after E clientId maxRetries es).g.conns)
    {n : Nat} {bs : Bytes} (h : (n, bs) ∈ x.w.p.written) :
    ∃ (code : Nat) (data : Bytes), Says clientId es code data ∧ bs = Spec.frame (n % 32767) code data :=
  connsSay_written (after_says E clientId maxRetries es).g.conns hx h

/-- Connecting, listening to pushes and switching circuit 505 on: the challenge, the login, the registration and the button press are
among the requests, and all of them are written. -/
theorem C87_witness :
    let s := after sampleEnv 100 1 (connectEvs ++ [.call (.subscribe 7 12500), .call (.setCircuit (.int 505) (.int 1))])
    (∀ m ∈ [((14 : Int), ([] : Bytes)), (27, loginBytes), (12522, words [0, 100]), (12530, words [0, 505, 1])],
      m ∈ s.g.log.filterMap (fun e => match e.2 with | .ask _ code data => some (code, data) | _ => none)) ∧
    (s.g.conns.map (fun x => x.w.p.written.length)) = [6] := by
  decide +kernel

end SL
