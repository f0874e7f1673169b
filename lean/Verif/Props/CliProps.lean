import Verif.Spec.Cli
import Verif.Props.OptionProps
import Verif.Props.SetterProps
/-!
# The command line
-/
set_option linter.unusedVariables false

namespace SL

open Cli (ask say data lift exec)

/-! ## Executing programs -/

section
variable {α β : Type} {G : Gate} {h : List (Call × Except PyErr Res)} {d : Val}

theorem cli_assoc {γ : Type} (p : Cli α) (f : α → Cli β) (g : β → Cli γ) : ((p >>= f) >>= g) = (p >>= fun a => f a >>= g) := by
  show Cli.bind (Cli.bind p f) g = Cli.bind p (fun a => Cli.bind (f a) g)
  induction p with
  | ret a => rfl
  | raise e => rfl
  | print o k ih => simp only [Cli.bind, ih]
  | read k ih => simp only [Cli.bind]; congr; funext x; exact ih x
  | call c k ih => simp only [Cli.bind]; congr; funext x; exact ih x

theorem exec_pure (a : α) : exec G (pure a) h d = ⟨h, [], .ok a⟩ := rfl

theorem exec_pure_bind (a : α) (f : α → Cli β) : exec G (pure a >>= f) h d = exec G (f a) h d := rfl

theorem exec_ok (a : α) (f : α → Cli β) : exec G (lift (.ok a) >>= f) h d = exec G (f a) h d := rfl

theorem exec_error (e : PyErr) (f : α → Cli β) : exec G (lift (.error e) >>= f) h d = ⟨h, [], .error e⟩ := rfl

theorem exec_data (f : Val → Cli β) : exec G (data >>= f) h d = exec G (f d) h d := rfl

theorem exec_say (o : Out) (f : Unit → Cli β) :
    exec G (say o >>= f) h d = ⟨(exec G (f ()) h d).calls, o :: (exec G (f ()) h d).out, (exec G (f ()) h d).result⟩ := rfl

theorem exec_ask_ok {c : Call} {r : Res} {d' : Val} (hc : G h c = (.ok r, d')) (f : Res → Cli β) :
    exec G (ask c >>= f) h d = exec G (f r) (h ++ [(c, .ok r)]) d' := by
  show exec G (.call c f) h d = _
  simp only [exec, hc]

theorem exec_ask_error {c : Call} {e : PyErr} {d' : Val} (hc : G h c = (.error e, d')) (f : Res → Cli β) :
    exec G (ask c >>= f) h d = ⟨h ++ [(c, .error e)], [], .error e⟩ := by
  show exec G (.call c f) h d = _
  simp only [exec, hc]

end

/-- A sequence is the first program and, if it returned, the second after it, with the data as they are then. -/
theorem exec_bind {α β : Type} {G : Gate} (p : Cli α) (f : α → Cli β) : ∀ h d,
    (∃ e, (exec G p h d).result = .error e ∧ exec G (p >>= f) h d = ⟨(exec G p h d).calls, (exec G p h d).out, .error e⟩) ∨
    (∃ a d', (exec G p h d).result = .ok a ∧ (exec G (p >>= f) h d).calls = (exec G (f a) (exec G p h d).calls d').calls ∧
      (exec G (p >>= f) h d).out = (exec G p h d).out ++ (exec G (f a) (exec G p h d).calls d').out ∧
      (exec G (p >>= f) h d).result = (exec G (f a) (exec G p h d).calls d').result) := by
  induction p with
  | ret a => intro h d; exact .inr ⟨a, d, rfl, rfl, rfl, rfl⟩
  | raise e => intro h d; exact .inl ⟨e, rfl, rfl⟩
  | print o k ih =>
    intro h d
    rcases ih h d with ⟨e, h1, h2⟩ | ⟨a, d', h1, h2, h3, h4⟩
    · refine .inl ⟨e, h1, ?_⟩
      show (⟨(exec G (k >>= f) h d).calls, o :: (exec G (k >>= f) h d).out, (exec G (k >>= f) h d).result⟩ : Run β) = _
      rw [h2]; rfl
    · exact .inr ⟨a, d', h1, h2, congrArg (o :: ·) h3, h4⟩
  | read k ih => intro h d; exact ih d h d
  | call c k ih =>
    intro h d
    have e1 : ∀ r d', G h c = (.ok r, d') → exec G (.call c k) h d = exec G (k r) (h ++ [(c, .ok r)]) d' := fun r d' hg => by simp only [exec, hg]
    have e2 : ∀ r d', G h c = (.ok r, d') → exec G (.call c k >>= f) h d = exec G (k r >>= f) (h ++ [(c, .ok r)]) d' := fun r d' hg => by
      show exec G (.call c fun r => k r >>= f) h d = _
      simp only [exec, hg]
    rcases hg : G h c with ⟨e | r, d'⟩
    · left
      have e3 : exec G (.call c k) h d = ⟨h ++ [(c, .error e)], [], .error e⟩ := by simp only [exec, hg]
      refine ⟨e, by rw [e3], ?_⟩
      rw [e3]
      show exec G (.call c fun r => k r >>= f) h d = _
      simp only [exec, hg]
    · rw [e1 r d' hg, e2 r d' hg]
      exact ih r _ _

/-- What the calls of a program look like: all but the last returned normally; if the last raised, so did the program. -/
theorem exec_calls {α : Type} {G : Gate} (p : Cli α) : ∀ h d, ∃ l, (exec G p h d).calls = h ++ l ∧
    ((∀ x ∈ l, ∃ r, x.2 = .ok r) ∨
     ∃ l0 c e, l = l0 ++ [(c, .error e)] ∧ (∀ x ∈ l0, ∃ r, x.2 = .ok r) ∧ (exec G p h d).result = .error e) := by
  induction p with
  | ret a => intro h d; exact ⟨[], by simp [exec], .inl (by simp)⟩
  | raise e => intro h d; exact ⟨[], by simp [exec], .inl (by simp)⟩
  | print o k ih => intro h d; exact ih h d
  | read k ih => intro h d; exact ih d h d
  | call c k ih =>
    intro h d
    rcases hg : G h c with ⟨e | r, d'⟩
    · have e3 : exec G (.call c k) h d = ⟨h ++ [(c, .error e)], [], .error e⟩ := by simp only [exec, hg]
      rw [e3]
      exact ⟨[(c, .error e)], rfl, .inr ⟨[], c, e, rfl, by simp, rfl⟩⟩
    · have e1 : exec G (.call c k) h d = exec G (k r) (h ++ [(c, .ok r)]) d' := by simp only [exec, hg]
      obtain ⟨l, h1, h2⟩ := ih r (h ++ [(c, .ok r)]) d'
      rw [e1]
      refine ⟨(c, .ok r) :: l, by rw [h1]; simp, ?_⟩
      rcases h2 with h2 | ⟨l0, c', e', h2, h3, h4⟩
      · left
        intro x hx
        rcases List.mem_cons.1 hx with rfl | hx
        · exact ⟨r, rfl⟩
        · exact h2 x hx
      · right
        refine ⟨(c, .ok r) :: l0, c', e', by rw [h2]; rfl, ?_, h4⟩
        intro x hx
        rcases List.mem_cons.1 hx with rfl | hx
        · exact ⟨r, rfl⟩
        · exact h3 x hx

/-! ## Programs without setters -/

/-- The program calls no setter. -/
inductive SetsNothing {α : Type} : Cli α → Prop
  | ret (a : α) : SetsNothing (.ret a)
  | raise (e : PyErr) : SetsNothing (.raise e)
  | print {k : Cli α} (o : Out) : SetsNothing k → SetsNothing (.print o k)
  | read {k : Val → Cli α} : (∀ d, SetsNothing (k d)) → SetsNothing (.read k)
  | call {k : Res → Cli α} (c : Call) : c.isSetter = false → (∀ r, SetsNothing (k r)) → SetsNothing (.call c k)

theorem SetsNothing.bind {α β : Type} {p : Cli α} {f : α → Cli β} (hp : SetsNothing p) (hf : ∀ a, SetsNothing (f a)) : SetsNothing (p >>= f) := by
  show SetsNothing (Cli.bind p f)
  induction hp with
  | ret a => exact hf a
  | raise e => exact .raise e
  | print o _ ih => exact .print o ih
  | read _ ih => exact .read ih
  | call c hc _ ih => exact .call c hc ih

theorem setsNothing_pure {α : Type} (a : α) : SetsNothing (pure a : Cli α) := .ret a

theorem setsNothing_lift {α : Type} (r : Except PyErr α) : SetsNothing (lift r) := by
  cases r
  · exact .raise _
  · exact .ret _

theorem setsNothing_data : SetsNothing data := .read (fun d => .ret d)

theorem setsNothing_say (o : Out) : SetsNothing (say o) := .print o (.ret ())

theorem setsNothing_ask {c : Call} (h : c.isSetter = false) : SetsNothing (ask c) := .call c h (fun r => .ret r)

theorem setsNothing_showElement (v : Bool) (p : Path) (e : Option EnumDef) : SetsNothing (showElement v p e) :=
  setsNothing_data.bind fun _ => (setsNothing_lift _).bind fun _ => (setsNothing_lift _).bind fun _ => (setsNothing_say _).bind fun _ => setsNothing_pure _

theorem setsNothing_showClock (C : CliEnv) : SetsNothing (showClock C) := by
  refine setsNothing_data.bind fun _ => (setsNothing_lift _).bind fun ts => ?_
  cases ts.num with
  | none => exact .raise _
  | some q => exact (setsNothing_lift _).bind fun _ => (setsNothing_say _).bind fun _ => setsNothing_pure _

/-- The setters among some calls. -/
def settersOf (l : List (Call × Except PyErr Res)) : List Call := (l.map (·.1)).filter Call.isSetter

theorem settersOf_snoc (l : List (Call × Except PyErr Res)) (c : Call) (r : Except PyErr Res) :
    settersOf (l ++ [(c, r)]) = settersOf l ++ if c.isSetter then [c] else [] := by
  simp only [settersOf, List.map_append, List.filter_append, List.map_cons, List.map_nil, List.filter_cons, List.filter_nil]

theorem setsNothing_exec {α : Type} {G : Gate} {p : Cli α} (hp : SetsNothing p) : ∀ h d, (exec G p h d).setters = settersOf h := by
  induction hp with
  | ret a => intro h d; rfl
  | raise e => intro h d; rfl
  | print o _ ih => intro h d; exact ih h d
  | read _ ih => intro h d; exact ih d h d
  | @call k c hc _ ih =>
    intro h d
    simp only [exec]
    split
    · rw [ih, settersOf_snoc, hc]; simp
    · show settersOf (h ++ [(c, .error _)]) = _
      rw [settersOf_snoc, hc]; simp

theorem bind_setters {α β : Type} {G : Gate} {f : α → Cli β} (hf : ∀ a, SetsNothing (f a)) (p : Cli α) :
    ∀ h d, (exec G (p >>= f) h d).setters = (exec G p h d).setters := by
  induction p with
  | ret a => intro h d; exact setsNothing_exec (hf a) h d
  | raise e => intro h d; rfl
  | print o k ih => intro h d; exact ih h d
  | read k ih => intro h d; exact ih d h d
  | call c k ih =>
    intro h d
    show (exec G (.call c fun r => (k r) >>= f) h d).setters = _
    simp only [exec]
    split
    · exact ih _ _ _
    · rfl

theorem ask_setters {β : Type} {G : Gate} {c : Call} (hc : c.isSetter = true) {k : Res → Cli β} (hk : ∀ r, SetsNothing (k r)) (h : List (Call × Except PyErr Res))
    (d : Val) : (exec G (ask c >>= k) h d).setters = settersOf h ++ [c] := by
  show (exec G (.call c k) h d).setters = _
  simp only [exec]
  split
  · rw [setsNothing_exec (hk _), settersOf_snoc, hc]; simp
  · show settersOf (h ++ [(c, .error _)]) = _
    rw [settersOf_snoc, hc]; simp

/-! ## Options -/

theorem option_value {U : UnicodeDb} (hU : U.Ascii) {e : EnumDef} (he : e ∈ slEnums) {t : String} {v : Int} (h : Chosen e t v) :
    optionValue U e t = .ok v := by
  obtain ⟨n, hm, ht⟩ := h
  have hp : e.parse U (.text t.toList) (some 0) = .ok (some v) := by
    obtain ⟨n', v', hm', ht', hp⟩ := (C67_parsable U hU e he (some 0)).2 t (List.mem_flatMap.2 ⟨_, hm, by
      rcases ht with rfl | rfl <;> simp⟩)
    have uniq : ∀ e ∈ slEnums, ∀ m ∈ e, ∀ m' ∈ e, (toString m.2 = toString m'.2 ∨ toString m.2 = m'.1.toLower ∨
        m.1.toLower = toString m'.2 ∨ m.1.toLower = m'.1.toLower) → m.2 = m'.2 := by decide +kernel
    have : v = v' := by
      refine uniq e he _ hm _ hm' ?_
      rcases ht with rfl | rfl <;> rcases ht' with h | h <;> simp [h]
    rw [this]
    exact hp
  unfold optionValue
  rw [hp]
  rfl

theorem en_mem : enOnOff ∈ slEnums ∧ enColorMode ∈ slEnums ∧ enBodyType ∈ slEnums ∧ enHeatMode ∈ slEnums := by decide +kernel

/-! ## The commands -/

section
variable {E : Env} {C : CliEnv} {G : Gate} {h : List (Call × Except PyErr Res)} {d : Val}

theorem look_inData {dev : String} {k : Key} {x : Val} (hl : d.look [.s dev, k] = some x) :
    ∃ y, getData false [.s dev] d = .ok y ∧ inData k y = .ok true := by
  cases d with
  | dict kv =>
    simp only [Val.look] at hl
    cases hy : aget (.s dev) kv with
    | none => rw [hy] at hl; cases hl
    | some y =>
      rw [hy, Option.bind_some] at hl
      cases y with
      | dict kv2 =>
        simp only [Val.look] at hl
        refine ⟨.dict kv2, getData_look false (v := .dict kv2) (by simp [Val.look, hy]) (by simp), ?_⟩
        simp only [inData]
        cases ha : aget k kv2 with
        | none => rw [ha] at hl; cases hl
        | some z => rfl
      | _ => cases hl
  | _ => cases hl

theorem cliSetScg_setters (v : Bool) (p s c t : Val) (hne : ¬ (p = .null ∧ s = .null ∧ c = .null ∧ t = .null)) :
    (exec G (cliSetScg v p s c t) h d).setters = settersOf h ++ [.setScg p s c t] := by
  unfold cliSetScg
  rw [if_neg hne]
  refine ask_setters rfl (fun _ => ?_) _ _
  exact (setsNothing_ask rfl).bind fun _ => setsNothing_data.bind fun _ => (setsNothing_lift _).bind fun _ => (setsNothing_lift _).bind fun _ =>
    (setsNothing_say _).bind fun _ => setsNothing_pure _

theorem cliSetChem_setters (v : Bool) (a b c e f g : Val)
    (hne : ¬ (a = .null ∧ b = .null ∧ c = .null ∧ e = .null ∧ f = .null ∧ g = .null)) :
    (exec G (cliSetChem v a b c e f g) h d).setters = settersOf h ++ [.setChem a b c e f g] := by
  unfold cliSetChem
  rw [if_neg hne]
  refine ask_setters rfl (fun _ => ?_) _ _
  exact (setsNothing_ask rfl).bind fun _ => setsNothing_data.bind fun _ => (setsNothing_lift _).bind fun _ => (setsNothing_lift _).bind fun _ =>
    (setsNothing_say _).bind fun _ => setsNothing_pure _

theorem arg_eq {α : Type} {f : α → Val} {o : Option α} {v : Val} (ha : Arg f o v) : v = (o.elim .null f) ∧ (o ≠ none → (∀ x, f x ≠ .null) → v ≠ .null) := by
  cases ha with
  | given x => exact ⟨rfl, fun _ hf => hf x⟩
  | left => exact ⟨rfl, fun hn => absurd rfl hn⟩

theorem optInt_elim (o : Option Int) : optInt o = o.elim .null Val.int := by cases o <;> rfl

theorem optStr_elim (o : Option String) : optStr o = o.elim .null Val.str := by cases o <;> rfl

theorem optRat_elim (o : Option Rat) : optFlt o = o.elim .null Val.flt := by cases o <;> rfl

/-- A command's program makes the setter call it stands for, and no other, unless (for the clock) the preceding query failed. -/
theorem cmd_setters (hU : E.uni.Ascii) (verbose : Bool) {c : CliCmd} {a : Call} (hw : Wants C d c a) :
    (exec G (c.prog E C verbose) h d).setters = settersOf h ++ [a] ∨
    ((∃ date dst, c = .setDateTime date dst) ∧ ∃ e, exec G (c.prog E C verbose) h d = ⟨h ++ [(.getDatetime, .error e)], [], .error e⟩) := by
  obtain ⟨m1, m2, m3, m4⟩ := en_mem
  have dt : ∀ (t : Option DateTime) (v : Val),
      (exec G (ask .getDatetime >>= fun _ => ask (.setDateTime t v) >>= fun _ => ask .getDatetime >>= fun _ => showClock C) h d).setters =
        settersOf h ++ [.setDateTime t v] ∨
      ∃ e, exec G (ask .getDatetime >>= fun _ => ask (.setDateTime t v) >>= fun _ => ask .getDatetime >>= fun _ => showClock C) h d =
        ⟨h ++ [(.getDatetime, .error e)], [], .error e⟩ := by
    intro t v
    rcases hg : G h .getDatetime with ⟨r | r, d'⟩
    · right
      exact ⟨r, exec_ask_error hg _⟩
    · left
      rw [exec_ask_ok hg, ask_setters rfl (fun _ => (setsNothing_ask rfl).bind fun _ => setsNothing_showClock C), settersOf_snoc]
      simp [Call.isSetter]
  cases hw with
  | circuit n t v x hl hc =>
    left
    obtain ⟨y, hy, hin⟩ := look_inData hl
    simp only [CliCmd.prog]
    rw [option_value hU m1 hc, exec_ok, exec_data, hy, exec_ok, hin, exec_ok, if_pos rfl]
    exact ask_setters rfl (fun _ => (setsNothing_ask rfl).bind fun _ => setsNothing_showElement _ _ _) _ _
  | color t v hc =>
    left
    simp only [CliCmd.prog]
    rw [option_value hU m2 hc, exec_ok]
    refine ask_setters rfl (fun _ => ?_) _ _
    split
    · exact (setsNothing_lift _).bind fun _ => (setsNothing_say _).bind fun _ => setsNothing_pure _
    · exact (setsNothing_say _).bind fun _ => setsNothing_pure _
  | heatMode tb tm b m hb hm =>
    left
    simp only [CliCmd.prog]
    rw [option_value hU m3 hb, exec_ok, option_value hU m4 hm, exec_ok]
    exact ask_setters rfl (fun _ => (setsNothing_ask rfl).bind fun _ => setsNothing_showElement _ _ _) _ _
  | heatTemp tb b t hb ht =>
    left
    simp only [CliCmd.prog]
    rw [option_value hU m3 hb, exec_ok, if_pos ht]
    exact ask_setters rfl (fun _ => (setsNothing_ask rfl).bind fun _ => setsNothing_showElement _ _ _) _ _
  | scg pool spa p s hp hs hne =>
    left
    simp only [CliCmd.prog]
    obtain ⟨e1, n1⟩ := arg_eq hp
    obtain ⟨e2, n2⟩ := arg_eq hs
    rw [optInt_elim, optInt_elim, ← e1, ← e2]
    refine cliSetScg_setters _ _ _ _ _ (fun hh => ?_)
    rcases hne with hne | hne
    · exact n1 hne (by simp) hh.1
    · exact n2 hne (by simp) hh.2.1
  | super st time s t hp hs hne =>
    left
    simp only [CliCmd.prog]
    obtain ⟨e1, n1⟩ := arg_eq hp
    obtain ⟨e2, n2⟩ := arg_eq hs
    rw [optStr_elim, optInt_elim, ← e1, ← e2]
    refine cliSetScg_setters _ _ _ _ _ (fun hh => ?_)
    rcases hne with hne | hne
    · exact n1 hne (by simp) hh.2.2.1
    · exact n2 hne (by simp) hh.2.2.2
  | chemSet ph orp p o hp ho hne =>
    left
    simp only [CliCmd.prog]
    obtain ⟨e1, n1⟩ := arg_eq hp
    obtain ⟨e2, n2⟩ := arg_eq ho
    rw [optRat_elim, optInt_elim, ← e1, ← e2]
    refine cliSetChem_setters _ _ _ _ _ _ _ (fun hh => ?_)
    rcases hne with hne | hne
    · exact n1 hne (by simp) hh.1
    · exact n2 hne (by simp) hh.2.1
  | chemVal ca ta cya tds w x y z hw hx hy hz hne =>
    left
    simp only [CliCmd.prog]
    obtain ⟨e1, n1⟩ := arg_eq hw
    obtain ⟨e2, n2⟩ := arg_eq hx
    obtain ⟨e3, n3⟩ := arg_eq hy
    obtain ⟨e4, n4⟩ := arg_eq hz
    rw [optInt_elim, optInt_elim, optInt_elim, optInt_elim, ← e1, ← e2, ← e3, ← e4]
    refine cliSetChem_setters _ _ _ _ _ _ _ (fun hh => ?_)
    rcases hne with hne | hne | hne | hne
    · exact n1 hne (by simp) hh.2.2.1
    · exact n2 hne (by simp) hh.2.2.2.1
    · exact n3 hne (by simp) hh.2.2.2.2.1
    · exact n4 hne (by simp) hh.2.2.2.2.2
  | date s t dst v hs hv =>
    simp only [CliCmd.prog, hs, Except.map]
    rw [exec_ok, optStr_elim, ← (arg_eq hv).1, if_neg (by simp)]
    exact (dt _ _).imp id (fun hh => ⟨⟨_, _, rfl⟩, hh⟩)
  | flag s =>
    simp only [CliCmd.prog]
    rw [exec_ok, if_neg (by simp [optStr])]
    exact (dt _ _).imp id (fun hh => ⟨⟨_, _, rfl⟩, hh⟩)
  | now =>
    simp only [CliCmd.prog]
    rw [exec_ok, if_pos (by simp [optStr])]
    exact (dt _ _).imp id (fun hh => ⟨⟨_, _, rfl⟩, hh⟩)

end

/-! ## Whole runs -/

section
variable {E : Env} {C : CliEnv} {G : Gate} {d : Val}

/-- What happens after connecting, by action. -/
def afterUpdate (E : Env) (C : CliEnv) (a : CliArgs) : Cli Int :=
  match a.action with
  | .export => do
    say .line
    return 0
  | .dashboard => do
    printDashboard
    let _ ← ask (.disconnect false)
    return 0
  | .discover => .raise .attributeError
  | .cmd c => do
    if a.verbose then say .line
    let code ← c.prog E C a.verbose
    let _ ← ask (.disconnect false)
    return code

theorem uses_body {a : CliArgs} {found : List Host} {host : ConnectArgs} (hu : Uses a found host) (ha : a.action ≠ .discover) :
    cliBody E C a found = cliConnected E C a host := by
  unfold cliBody
  cases hu with
  | given ip h1 h2 => rw [h1, if_neg (by simpa using h2)]
  | first h rest h1 h2 =>
    rw [if_pos (by rcases h1 with h | h <;> rw [h] <;> rfl), h2]
    cases ha' : a.action <;> first | rfl | exact absurd ha' ha

theorem ready_exec (a : CliArgs) {host : ConnectArgs} (hr : LetsIn G host d) :
    ∃ r1 r2, exec G (cliConnected E C a host) [] (.dict []) =
      exec G (afterUpdate E C a) [(.connect host, .ok r1), (.update, .ok r2)] d := by
  obtain ⟨r1, d1, r2, x, h1, h2, h3⟩ := hr
  refine ⟨r1, r2, ?_⟩
  unfold cliConnected
  rw [exec_ask_ok h1, List.nil_append, exec_ask_ok h2, exec_data]
  have hin : inData (.s "controller") d = .ok true := by
    cases d with
    | dict kv =>
      simp only [Val.look] at h3
      simp only [inData]
      cases ha : aget (.s "controller") kv with
      | none => rw [ha] at h3; cases h3
      | some y => rfl
    | _ => cases h3
  rw [hin, exec_ok, if_pos rfl]
  rfl

/-- A run and the run of the body: the same calls, the same setters. -/
theorem cli_calls (a : CliArgs) (found : List Host) : (cli E C G a found).calls = (exec G (cliBody E C a found) [] (.dict [])).calls := by
  unfold cli
  simp only
  split
  · split <;> rfl
  · rfl

theorem cmd_exec {a : CliArgs} {c : CliCmd} (hc : a.action = .cmd c) (h : List (Call × Except PyErr Res)) :
    (exec G (afterUpdate E C a) h d).setters = (exec G (c.prog E C a.verbose) h d).setters := by
  unfold afterUpdate
  rw [hc]
  simp only
  have key : (exec G (c.prog E C a.verbose >>= fun code => ask (.disconnect false) >>= fun _ => pure code) h d).setters =
      (exec G (c.prog E C a.verbose) h d).setters :=
    bind_setters (fun code => (setsNothing_ask rfl).bind fun _ => setsNothing_pure _) _ _ _
  split
  · exact key
  · exact key

end

/-! ## C75: what is set -/

section
variable {E : Env} {C : CliEnv} {G : Gate} {d : Val}

/-- What happens after connecting, for a command. -/
theorem cmd_after {a : CliArgs} {c : CliCmd} (hc : a.action = .cmd c) (h : List (Call × Except PyErr Res)) :
    ∃ o, exec G (afterUpdate E C a) h d =
      { exec G (c.prog E C a.verbose >>= fun code => ask (.disconnect false) >>= fun _ => pure code) h d with
        out := o ++ (exec G (c.prog E C a.verbose >>= fun code => ask (.disconnect false) >>= fun _ => pure code) h d).out } := by
  unfold afterUpdate
  rw [hc]
  simp only
  split
  · exact ⟨[.line], rfl⟩
  · exact ⟨[], rfl⟩

theorem cmd_run {a : CliArgs} {found : List Host} {host : ConnectArgs} {c : CliCmd} (hu : Uses a found host) (hc : a.action = .cmd c)
    (hr : LetsIn G host d) : ∃ r1 r2 o, exec G (cliBody E C a found) [] (.dict []) =
      { exec G (c.prog E C a.verbose >>= fun code => ask (.disconnect false) >>= fun _ => pure code)
          [(.connect host, .ok r1), (.update, .ok r2)] d with
        out := o ++ (exec G (c.prog E C a.verbose >>= fun code => ask (.disconnect false) >>= fun _ => pure code)
          [(.connect host, .ok r1), (.update, .ok r2)] d).out } := by
  obtain ⟨r1, r2, h⟩ := ready_exec (E := E) (C := C) a hr
  obtain ⟨o, ho⟩ := cmd_after (E := E) (C := C) (G := G) (d := d) hc [(.connect host, .ok r1), (.update, .ok r2)]
  exact ⟨r1, r2, o, by rw [uses_body hu (by rw [hc]; simp), h, ho]⟩

/-- **C75**: on every gateway that can be reached, a set command makes the setter call it stands for, with exactly the values
given, and no other, whatever the gateway answers; only setting the clock asks for the clock first and does nothing if that
fails. -/
theorem C75_sets (hU : E.uni.Ascii) {a : CliArgs} {found : List Host} {host : ConnectArgs} {c : CliCmd} {call : Call} (hu : Uses a found host)
    (hc : a.action = .cmd c) (hr : LetsIn G host d) (hw : Wants C d c call) :
    (cli E C G a found).setters = [call] ∨
    (cli E C G a found).setters = [] ∧ (∃ date dst, c = .setDateTime date dst) ∧
      ∃ e, (Call.getDatetime, .error e) ∈ (cli E C G a found).calls := by
  obtain ⟨r1, r2, o, h⟩ := cmd_run (E := E) (C := C) hu hc hr
  have hcalls : (cli E C G a found).calls = _ := (cli_calls a found).trans (congrArg Run.calls h)
  have hset : (cli E C G a found).setters = (exec G (c.prog E C a.verbose) [(.connect host, .ok r1), (.update, .ok r2)] d).setters := by
    unfold Run.setters
    rw [hcalls]
    exact bind_setters (fun code => (setsNothing_ask rfl).bind fun _ => setsNothing_pure _) _ _ _
  rcases cmd_setters (E := E) (C := C) (G := G) (h := [(.connect host, .ok r1), (.update, .ok r2)]) hU a.verbose hw with hs | ⟨hne, e, he⟩
  · left; rw [hset, hs]; rfl
  · right
    refine ⟨by rw [hset, he]; rfl, hne, e, ?_⟩
    rw [hcalls]
    rcases exec_bind (G := G) (c.prog E C a.verbose) (fun code => ask (.disconnect false) >>= fun _ => pure code)
      [(.connect host, .ok r1), (.update, .ok r2)] d with ⟨e', h1, h2⟩ | ⟨x, d', h1, _⟩
    · rw [h2, he]; simp
    · rw [he] at h1; cases h1

/-- Getting is not setting. -/
def CliCmd.isGet : CliCmd → Bool
  | .getCircuit _ | .getHeatMode _ | .getHeatTemp _ | .getHeatState _ | .getCurrentTemp _ | .getDateTime | .getAutoDst | .getJson => true
  | _ => false

theorem setsNothing_get {c : CliCmd} (hg : c.isGet = true) (v : Bool) : SetsNothing (c.prog E C v) := by
  cases c with
  | getCircuit n =>
    refine setsNothing_data.bind fun _ => (setsNothing_lift _).bind fun _ => (setsNothing_lift _).bind fun b => ?_
    split
    · exact setsNothing_showElement _ _ _
    · exact (setsNothing_say _).bind fun _ => setsNothing_pure _
  | getHeatMode b => exact (setsNothing_lift _).bind fun _ => setsNothing_showElement _ _ _
  | getHeatTemp b => exact (setsNothing_lift _).bind fun _ => setsNothing_showElement _ _ _
  | getHeatState b => exact (setsNothing_lift _).bind fun _ => setsNothing_showElement _ _ _
  | getCurrentTemp b => exact (setsNothing_lift _).bind fun _ => setsNothing_showElement _ _ _
  | getDateTime => exact (setsNothing_ask rfl).bind fun _ => setsNothing_showClock C
  | getAutoDst => exact (setsNothing_ask rfl).bind fun _ => setsNothing_showElement _ _ _
  | getJson => exact setsNothing_data.bind fun _ => (setsNothing_say _).bind fun _ => setsNothing_pure _
  | _ => cases hg

theorem setsNothing_bodies (l : List (Key × Val)) : SetsNothing (printBodies l) := by
  induction l with
  | nil => exact setsNothing_pure _
  | cons x l ih =>
    obtain ⟨k, b⟩ := x
    refine SetsNothing.bind ?_ fun _ => ih
    unfold printBody
    repeat' first | exact setsNothing_say _ | refine SetsNothing.bind (setsNothing_lift _) fun _ => ?_ | refine SetsNothing.bind (setsNothing_say _) fun _ => ?_

theorem setsNothing_circuits (l : List (Key × Val)) : SetsNothing (printCircuits l) := by
  induction l with
  | nil => exact setsNothing_pure _
  | cons x l ih =>
    obtain ⟨k, b⟩ := x
    refine SetsNothing.bind (setsNothing_lift _) fun i => ?_
    split
    · exact ih
    · exact (setsNothing_lift _).bind fun _ => (setsNothing_lift _).bind fun _ => (setsNothing_lift _).bind fun _ => (setsNothing_say _).bind fun _ => ih

theorem setsNothing_hosts (l : List Host) : SetsNothing (printHosts l) := by
  induction l with
  | nil => exact setsNothing_pure _
  | cons x l ih => exact (setsNothing_say _).bind fun _ => ih

theorem setsNothing_dashboard : SetsNothing printDashboard :=
  setsNothing_data.bind fun _ => (setsNothing_say _).bind fun _ => (setsNothing_lift _).bind fun _ => (setsNothing_lift _).bind fun _ => (setsNothing_bodies _).bind fun _ =>
    (setsNothing_lift _).bind fun _ => (setsNothing_lift _).bind fun _ => (setsNothing_circuits _).bind fun _ => setsNothing_say _

/-- **C75**: whatever else is asked for (the dashboard, discovery, the export, a get command), with whatever arguments and whatever gateways,
no setter is called. -/
theorem C75_reads (a : CliArgs) (found : List Host) (hg : ∀ c, a.action = .cmd c → c.isGet = true) : (cli E C G a found).setters = [] := by
  have hconn : ∀ host, SetsNothing (cliConnected E C a host) := by
    intro host
    unfold cliConnected
    refine (setsNothing_ask rfl).bind fun _ => (setsNothing_ask rfl).bind fun _ => setsNothing_data.bind fun _ => (setsNothing_lift _).bind fun b => ?_
    split
    · split
      · exact (setsNothing_say _).bind fun _ => setsNothing_pure _
      · exact setsNothing_dashboard.bind fun _ => (setsNothing_ask rfl).bind fun _ => setsNothing_pure _
      · exact .raise _
      · rename_i c hc
        have := setsNothing_get (E := E) (C := C) (hg c hc) a.verbose
        have h2 := this.bind (f := fun code => ask (.disconnect false) >>= fun _ => pure code) fun code => (setsNothing_ask rfl).bind fun _ => setsNothing_pure _
        simp only
        split
        · exact (setsNothing_say _).bind fun _ => h2
        · exact h2
    · exact setsNothing_pure _
  have hbody : SetsNothing (cliBody E C a found) := by
    unfold cliBody
    split
    · split
      · exact (setsNothing_say _).bind fun _ => setsNothing_pure _
      · split
        · exact (setsNothing_hosts _).bind fun _ => setsNothing_pure _
        · exact hconn _
    · exact hconn _
  show settersOf _ = []
  rw [cli_calls]
  exact setsNothing_exec hbody _ _

end

/-! ## C76, C77: how it ends -/

section
variable {E : Env} {C : CliEnv} {G : Gate} {d : Val}

/-- **C76**: a call that raises is the last one, the earlier ones having returned normally; a ScreenLogic exception gives exit status
-1, any other exception leaves the program. -/
theorem C76_failure (a : CliArgs) (found : List Host) (c : Call) (e : PyErr) (hm : (c, .error e) ∈ (cli E C G a found).calls) :
    (∃ l, (cli E C G a found).calls = l ++ [(c, .error e)] ∧ ∀ x ∈ l, ∃ r, x.2 = .ok r) ∧
    (e.isScreenLogic = true → (cli E C G a found).result = .ok (-1)) ∧
    (e.isScreenLogic = false → (cli E C G a found).result = .error e) := by
  obtain ⟨l, h1, h2⟩ := exec_calls (G := G) (cliBody E C a found) [] (.dict [])
  rw [List.nil_append] at h1
  rw [cli_calls, h1] at hm ⊢
  rcases h2 with h2 | ⟨l0, c', e', h2, h3, h4⟩
  · obtain ⟨r, hr⟩ := h2 _ hm; cases hr
  · have he : (c, Except.error e) = ((c', .error e') : Call × Except PyErr Res) := by
      rw [h2] at hm
      rcases List.mem_append.1 hm with hm | hm
      · obtain ⟨r, hr⟩ := h3 _ hm; cases hr
      · exact List.mem_singleton.1 hm
    cases he
    refine ⟨⟨l0, h2, h3⟩, fun hs => ?_, fun hs => ?_⟩
    · unfold cli
      simp only [h4, hs, if_true]
    · unfold cli
      simp only [h4, hs, Bool.false_eq_true, if_false]

theorem cli_ok {a : CliArgs} {found : List Host} {n : Int} (h : (cli E C G a found).result = .ok n) (hn : n ≠ -1) :
    (exec G (cliBody E C a found) [] (.dict [])).result = .ok n := by
  unfold cli at h
  simp only at h
  split at h
  · rename_i e he
    split at h
    · cases h; exact absurd rfl hn
    · rw [he] at h; cases h
  · exact h

/-- The program returns only such values. -/
inductive Gives {α : Type} (S : α → Prop) : Cli α → Prop
  | ret (a : α) : S a → Gives S (.ret a)
  | raise (e : PyErr) : Gives S (.raise e)
  | print {k : Cli α} (o : Out) : Gives S k → Gives S (.print o k)
  | read {k : Val → Cli α} : (∀ d, Gives S (k d)) → Gives S (.read k)
  | call {k : Res → Cli α} (c : Call) : (∀ r, Gives S (k r)) → Gives S (.call c k)

theorem gives_any {α : Type} (p : Cli α) : Gives (fun _ => True) p := by
  induction p with
  | ret a => exact .ret a trivial
  | raise e => exact .raise e
  | print o k ih => exact .print o ih
  | read k ih => exact .read ih
  | call c k ih => exact .call c ih

theorem Gives.bind {α β : Type} {S : α → Prop} {T : β → Prop} {p : Cli α} {f : α → Cli β} (hp : Gives S p) (hf : ∀ a, S a → Gives T (f a)) :
    Gives T (p >>= f) := by
  show Gives T (Cli.bind p f)
  induction hp with
  | ret a ha => exact hf a ha
  | raise e => exact .raise e
  | print o _ ih => exact .print o ih
  | read _ ih => exact .read ih
  | call c _ ih => exact .call c ih

theorem Gives.after {α β : Type} {T : β → Prop} (p : Cli α) {f : α → Cli β} (hf : ∀ a, Gives T (f a)) : Gives T (p >>= f) :=
  (gives_any p).bind fun a _ => hf a

theorem gives_exec {α : Type} {S : α → Prop} {p : Cli α} (hp : Gives S p) : ∀ h d a, (exec G p h d).result = .ok a → S a := by
  induction hp with
  | ret a ha => intro h d b hb; cases hb; exact ha
  | raise e => intro h d b hb; cases hb
  | print o _ ih => intro h d b hb; exact ih h d b hb
  | read _ ih => intro h d b hb; exact ih d h d b hb
  | call c _ ih =>
    intro h d b hb
    simp only [exec] at hb
    split at hb
    · exact ih _ _ _ _ hb
    · cases hb

/-- The exit statuses of commands. -/
def CmdCode (n : Int) : Prop := n = 0 ∨ n = 4 ∨ n = 65 ∨ n = 129

theorem gives_show (v : Bool) (p : Path) (e : Option EnumDef) : Gives CmdCode (showElement v p e) :=
  .after _ fun _ => .after _ fun _ => .after _ fun _ => .after _ fun _ => .ret _ (.inl rfl)

theorem gives_clock : Gives CmdCode (showClock C) := by
  refine .after _ fun _ => .after _ fun ts => ?_
  cases ts.num with
  | none => exact .raise _
  | some q => exact .after _ fun _ => .after _ fun _ => .ret _ (.inl rfl)

theorem gives_scg (v : Bool) (p s c t : Val) : Gives CmdCode (cliSetScg v p s c t) := by
  unfold cliSetScg
  split
  · exact .after _ fun _ => .ret _ (.inr (.inr (.inl rfl)))
  · exact .after _ fun _ => .after _ fun _ => .after _ fun _ => .after _ fun _ => .after _ fun _ => .after _ fun _ => .ret _ (.inl rfl)

theorem gives_chem (v : Bool) (a b c e f g : Val) : Gives CmdCode (cliSetChem v a b c e f g) := by
  unfold cliSetChem
  split
  · exact .after _ fun _ => .ret _ (.inr (.inr (.inr rfl)))
  · exact .after _ fun _ => .after _ fun _ => .after _ fun _ => .after _ fun _ => .after _ fun _ => .after _ fun _ => .ret _ (.inl rfl)

theorem gives_cmd (c : CliCmd) (v : Bool) : Gives CmdCode (c.prog E C v) := by
  cases c with
  | getCircuit n =>
    refine .after _ fun _ => .after _ fun _ => .after _ fun b => ?_
    split
    · exact gives_show _ _ _
    · exact .after _ fun _ => .ret _ (.inr (.inl rfl))
  | getHeatMode b => exact .after _ fun _ => gives_show _ _ _
  | getHeatTemp b => exact .after _ fun _ => gives_show _ _ _
  | getHeatState b => exact .after _ fun _ => gives_show _ _ _
  | getCurrentTemp b => exact .after _ fun _ => gives_show _ _ _
  | getDateTime => exact .after _ fun _ => gives_clock
  | getAutoDst => exact .after _ fun _ => gives_show _ _ _
  | getJson => exact .after _ fun _ => .after _ fun _ => .ret _ (.inl rfl)
  | setCircuit n st =>
    refine .after _ fun _ => .after _ fun _ => .after _ fun _ => .after _ fun b => ?_
    split
    · exact .after _ fun _ => .after _ fun _ => gives_show _ _ _
    · exact .after _ fun _ => .ret _ (.inr (.inl rfl))
  | setColorLights m =>
    refine .after _ fun _ => .after _ fun _ => ?_
    split
    · exact .after _ fun _ => .after _ fun _ => .ret _ (.inl rfl)
    · exact .after _ fun _ => .ret _ (.inl rfl)
  | setHeatMode b m => exact .after _ fun _ => .after _ fun _ => .after _ fun _ => .after _ fun _ => gives_show _ _ _
  | setHeatTemp b t =>
    refine .after _ fun _ => ?_
    split
    · exact .after _ fun _ => .after _ fun _ => gives_show _ _ _
    · exact gives_show _ _ _
  | setScg p s => exact gives_scg _ _ _ _ _
  | setSuper st time => exact gives_scg _ _ _ _ _
  | setChemSetpoint ph orp => exact gives_chem _ _ _ _ _ _ _
  | setChemValue a b c e => exact gives_chem _ _ _ _ _ _ _
  | setDateTime date dst => exact .after _ fun _ => .after _ fun _ => .after _ fun _ => .after _ fun _ => gives_clock

theorem gives_connected (a : CliArgs) (host : ConnectArgs) : Gives (fun n => CmdCode n ∨ n = 1) (cliConnected E C a host) := by
  refine .after _ fun _ => .after _ fun _ => .after _ fun _ => .after _ fun b => ?_
  split
  · split
    · exact .after _ fun _ => .ret _ (.inl (.inl rfl))
    · exact .after _ fun _ => .after _ fun _ => .ret _ (.inl (.inl rfl))
    · exact .raise _
    · rename_i c hc
      have key : Gives (fun n => CmdCode n ∨ n = 1) (c.prog E C a.verbose >>= fun code => ask (.disconnect false) >>= fun _ => pure code) :=
        (gives_cmd c a.verbose).bind fun n hn => .after _ fun _ => .ret _ (.inl hn)
      simp only
      split
      · exact .after _ fun _ => key
      · exact key
  · exact .ret _ (.inr rfl)

/-- **C76**: the exit status is 0, 1 (no gateway or no data), 4 (no such circuit), 65 or 129 (nothing to set), or -1 (an error). -/
theorem C76_status (a : CliArgs) (found : List Host) (n : Int) (h : (cli E C G a found).result = .ok n) :
    n = 0 ∨ n = 1 ∨ n = 4 ∨ n = 65 ∨ n = 129 ∨ n = -1 := by
  by_cases hn : n = -1
  · simp [hn]
  · have hb : Gives (fun n => CmdCode n ∨ n = 1) (cliBody E C a found) := by
      unfold cliBody
      split
      · split
        · exact .after _ fun _ => .ret _ (.inr rfl)
        · split
          · exact .after _ fun _ => .ret _ (.inl (.inl rfl))
          · exact gives_connected _ _
      · exact gives_connected _ _
    rcases gives_exec hb _ _ _ (cli_ok h hn) with (h | h | h | h) | h <;> simp [h]

/-- **C76**: with any exit status but -1 every call returned normally. -/
theorem C76_success (a : CliArgs) (found : List Host) (n : Int) (h : (cli E C G a found).result = .ok n) (hn : n ≠ -1) :
    ∀ x ∈ (cli E C G a found).calls, ∃ r, x.2 = .ok r := by
  have h' := cli_ok h hn
  obtain ⟨l, h1, h2⟩ := exec_calls (G := G) (cliBody E C a found) [] (.dict [])
  rw [cli_calls, h1, List.nil_append]
  rcases h2 with h2 | ⟨l0, c', e', h2, h3, h4⟩
  · exact h2
  · rw [h4] at h'; cases h'

theorem disconnect_last {p : Cli Int} {h : List (Call × Except PyErr Res)} {n : Int} {k : Int → Int}
    (hr : (exec G (p >>= fun code => ask (.disconnect false) >>= fun _ => pure (k code)) h d).result = .ok n) :
    ∃ l r, (exec G (p >>= fun code => ask (.disconnect false) >>= fun _ => pure (k code)) h d).calls = l ++ [(.disconnect false, .ok r)] := by
  rcases exec_bind (G := G) p (fun code => ask (.disconnect false) >>= fun _ => pure (k code)) h d with ⟨e, h1, h2⟩ | ⟨x, d', h1, h2, h3, h4⟩
  · rw [h2] at hr; cases hr
  · rw [h4] at hr
    rw [h2]
    rcases hg : G (exec G p h d).calls (.disconnect false) with ⟨e | r, d2⟩
    · rw [exec_ask_error hg] at hr; cases hr
    · rw [exec_ask_ok hg]
      exact ⟨_, r, rfl⟩

end

end SL
