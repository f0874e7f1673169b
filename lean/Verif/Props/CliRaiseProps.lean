import Verif.Props.CliLiveProps
import Verif.Props.CancelProps
/-!
# C96: exceptions that leave the command line
-/
set_option linter.unusedVariables false

namespace SL
open Cli (ask say data lift exec)

/-- Apart from its calls, the program raises only such exceptions. -/
inductive Throws {α : Type} (S : PyErr → Prop) : Cli α → Prop
  | ret (a : α) : Throws S (.ret a)
  | raise (e : PyErr) : S e → Throws S (.raise e)
  | print {k : Cli α} (o : Out) : Throws S k → Throws S (.print o k)
  | read {k : Val → Cli α} : (∀ d, Throws S (k d)) → Throws S (.read k)
  | call {k : Res → Cli α} (c : Call) : (∀ r, Throws S (k r)) → Throws S (.call c k)

/-- A computation fails only so. -/
def Fails {α : Type} (S : PyErr → Prop) (x : Except PyErr α) : Prop := ∀ e, x = .error e → S e

section
variable {S : PyErr → Prop}

theorem Throws.bind {α β : Type} {p : Cli α} {f : α → Cli β} (hp : Throws S p) (hf : ∀ a, Throws S (f a)) : Throws S (p >>= f) := by
  show Throws S (Cli.bind p f)
  induction hp with
  | ret a => exact hf a
  | raise e he => exact .raise e he
  | print o _ ih => exact .print o ih
  | read _ ih => exact .read ih
  | call c _ ih => exact .call c ih

theorem throws_pure {α : Type} (a : α) : Throws S (pure a : Cli α) := .ret a

theorem throws_lift {α : Type} {r : Except PyErr α} (h : Fails S r) : Throws S (lift r) := by
  cases r with
  | error e => exact .raise _ (h e rfl)
  | ok a => exact .ret _

theorem throws_data : Throws S data := .read (fun d => .ret d)

theorem throws_say (o : Out) : Throws S (say o) := .print o (.ret ())

theorem throws_ask (c : Call) : Throws S (ask c) := .call c (fun r => .ret r)

/-- How a run ends. -/
theorem throws_exec {α : Type} {G : Gate} {p : Cli α} (hp : Throws S p) : ∀ h d e, (exec G p h d).result = .error e →
    S e ∨ ∃ c, (c, .error e) ∈ (exec G p h d).calls := by
  induction hp with
  | ret a => intro h d e he; cases he
  | raise e' hS => intro h d e he; cases he; exact .inl hS
  | print o _ ih => intro h d e he; exact ih h d e he
  | read _ ih => intro h d e he; exact ih d h d e he
  | @call k c _ ih =>
    intro h d e he
    simp only [exec] at he ⊢
    split at he
    · rename_i r d' hg
      rw [hg] at *
      exact ih _ _ _ _ he
    · rename_i e' d' hg
      cases he
      exact .inr ⟨c, by simp⟩

theorem fails_bind {α β : Type} {x : Except PyErr α} {f : α → Except PyErr β} (hx : Fails S x) (hf : ∀ a, Fails S (f a)) : Fails S (x >>= f) := by
  cases x with
  | error e' => intro e h; cases h; exact hx _ rfl
  | ok a => exact hf a

theorem fails_ok {α : Type} (a : α) : Fails S (.ok a) := fun e h => by cases h
theorem fails_pure {α : Type} (a : α) : Fails S (pure a) := fun e h => by cases h
theorem fails_error {α : Type} {e : PyErr} (h : S e) : Fails S (.error e : Except PyErr α) := fun e' h' => by cases h'; exact h

end

/-- The Python exceptions of the command line's own code. -/
def ownErrors : List PyErr := [.keyError, .typeError, .valueError, .attributeError]

/-- ... and of the host's date functions. -/
def CliErr (C : CliEnv) (e : PyErr) : Prop :=
  e ∈ ownErrors ∨ (∃ s, C.fromIso s = .error e) ∨ ∃ q, C.fromTimestampUtc q = .error e

section
variable {E : Env} {C : CliEnv}

theorem CliErr.own {e : PyErr} (h : e ∈ ownErrors) : CliErr C e := .inl h

theorem fails_item (v : Val) (k : String) : Fails (CliErr C) (v.item k) := by
  unfold Val.item
  split
  · split
    · exact fails_ok _
    · exact fails_error (.own (by decide))
  · exact fails_error (.own (by decide))

theorem fails_member (e : EnumDef) (v : Val) : Fails (CliErr C) (enumMember e v) := by
  unfold enumMember
  split
  · split
    · split
      · exact fails_ok _
      · exact fails_error (.own (by decide))
    · exact fails_error (.own (by decide))
  · exact fails_error (.own (by decide))

theorem fails_format (v : Bool) (x : Val) (cls : Option EnumDef) : Fails (CliErr C) (vFormat v x cls) := by
  unfold vFormat
  split
  · refine fails_bind (fails_item _ _) fun _ => fails_bind (fails_item _ _) fun _ => ?_
    split
    · exact fails_bind (fails_member _ _) fun _ => fails_pure _
    · exact fails_pure _
  · refine fails_bind (fails_item _ _) fun _ => ?_
    split
    · exact fails_bind (fails_member _ _) fun _ => fails_pure _
    · exact fails_pure _

theorem fails_inData (k : Key) (d : Val) : Fails (CliErr C) (inData k d) := by
  unfold inData
  split
  · exact fails_ok _
  · exact fails_error (.own (by decide))

theorem fails_getData (s : Bool) (p : Path) (d : Val) : Fails (CliErr C) (getData s p d) := by
  induction p generalizing d with
  | nil => exact fails_ok _
  | cons k ks ih =>
    unfold getData
    split
    · split
      · exact fails_error (.own (by decide))
      · exact fails_ok _
    · exact ih _

theorem fails_option (U : UnicodeDb) (e : EnumDef) (s : String) : Fails (CliErr C) (optionValue U e s) := by
  unfold optionValue
  refine fails_bind ?_ fun o => ?_
  · unfold EnumDef.parse
    split
    · exact fails_ok _
    · split
      · exact fails_ok _
      · split
        · exact fails_ok _
        · exact fails_error (.own (by decide))
  · split
    · exact fails_pure _
    · exact fails_error (.own (by decide))

theorem fails_changed (v : Bool) (new : Val) (l : List (String × Val)) : Fails (CliErr C) (changed v new l) := by
  induction l with
  | nil => exact fails_ok _
  | cons x l ih =>
    obtain ⟨k, y⟩ := x
    unfold changed
    refine fails_bind (fails_inData _ _) fun b => ?_
    split
    · split
      · exact ih
      · exact fails_bind (fails_item _ _) fun _ => fails_bind (fails_format _ _ _) fun _ => fails_bind ih fun _ => fails_pure _
    · exact ih

theorem fails_items (v : Val) : Fails (CliErr C) (dictItems v) := by
  unfold dictItems
  split
  · exact fails_ok _
  · exact fails_error (.own (by decide))

theorem throws_show (v : Bool) (p : Path) (e : Option EnumDef) : Throws (CliErr C) (showElement v p e) :=
  throws_data.bind fun _ => (throws_lift (fails_getData _ _ _)).bind fun _ => (throws_lift (fails_format _ _ _)).bind fun _ => (throws_say _).bind fun _ => throws_pure _

theorem throws_clock : Throws (CliErr C) (showClock C) := by
  refine throws_data.bind fun _ => (throws_lift (fails_getData _ _ _)).bind fun ts => ?_
  cases ts.num with
  | none => exact .raise _ (.own (by decide))
  | some q => exact (throws_lift (fun e he => .inr (.inr ⟨q, he⟩))).bind fun _ => (throws_say _).bind fun _ => throws_pure _

theorem throws_scg (v : Bool) (a b c d : Val) : Throws (CliErr C) (cliSetScg v a b c d) := by
  unfold cliSetScg
  split
  · exact (throws_say _).bind fun _ => throws_pure _
  · exact (throws_ask _).bind fun _ => (throws_ask _).bind fun _ => throws_data.bind fun _ => (throws_lift (fails_getData _ _ _)).bind fun _ =>
      (throws_lift (fails_changed _ _ _)).bind fun _ => (throws_say _).bind fun _ => throws_pure _

theorem throws_chem (v : Bool) (a b c d e f : Val) : Throws (CliErr C) (cliSetChem v a b c d e f) := by
  unfold cliSetChem
  split
  · exact (throws_say _).bind fun _ => throws_pure _
  · exact (throws_ask _).bind fun _ => (throws_ask _).bind fun _ => throws_data.bind fun _ => (throws_lift (fails_getData _ _ _)).bind fun _ =>
      (throws_lift (fails_changed _ _ _)).bind fun _ => (throws_say _).bind fun _ => throws_pure _

theorem throws_option (e : EnumDef) (s : String) : Throws (CliErr C) (lift (optionValue E.uni e s)) := throws_lift (fails_option _ _ _)

theorem throws_cmd (c : CliCmd) (v : Bool) : Throws (CliErr C) (c.prog E C v) := by
  cases c with
  | getCircuit n =>
    refine throws_data.bind fun _ => (throws_lift (fails_getData _ _ _)).bind fun _ => (throws_lift (fails_inData _ _)).bind fun b => ?_
    split
    · exact throws_show _ _ _
    · exact (throws_say _).bind fun _ => throws_pure _
  | getHeatMode b => exact (throws_option _ _).bind fun _ => throws_show _ _ _
  | getHeatTemp b => exact (throws_option _ _).bind fun _ => throws_show _ _ _
  | getHeatState b => exact (throws_option _ _).bind fun _ => throws_show _ _ _
  | getCurrentTemp b => exact (throws_option _ _).bind fun _ => throws_show _ _ _
  | getDateTime => exact (throws_ask _).bind fun _ => throws_clock
  | getAutoDst => exact (throws_ask _).bind fun _ => throws_show _ _ _
  | getJson => exact throws_data.bind fun _ => (throws_say _).bind fun _ => throws_pure _
  | setCircuit n st =>
    refine (throws_option _ _).bind fun _ => throws_data.bind fun _ => (throws_lift (fails_getData _ _ _)).bind fun _ =>
      (throws_lift (fails_inData _ _)).bind fun b => ?_
    split
    · exact (throws_ask _).bind fun _ => (throws_ask _).bind fun _ => throws_show _ _ _
    · exact (throws_say _).bind fun _ => throws_pure _
  | setColorLights m =>
    refine (throws_option _ _).bind fun _ => (throws_ask _).bind fun _ => ?_
    split
    · exact (throws_lift (fails_member _ _)).bind fun _ => (throws_say _).bind fun _ => throws_pure _
    · exact (throws_say _).bind fun _ => throws_pure _
  | setHeatMode b m =>
    exact (throws_option _ _).bind fun _ => (throws_option _ _).bind fun _ => (throws_ask _).bind fun _ => (throws_ask _).bind fun _ => throws_show _ _ _
  | setHeatTemp b t =>
    refine (throws_option _ _).bind fun _ => ?_
    split
    · exact (throws_ask _).bind fun _ => (throws_ask _).bind fun _ => throws_show _ _ _
    · exact throws_show _ _ _
  | setScg p s => exact throws_scg _ _ _ _ _
  | setSuper s t => exact throws_scg _ _ _ _ _
  | setChemSetpoint p o => exact throws_chem _ _ _ _ _ _ _
  | setChemValue a b c d => exact throws_chem _ _ _ _ _ _ _
  | setDateTime date dst =>
    refine Throws.bind (throws_lift ?_) fun _ => (throws_ask _).bind fun _ => (throws_ask _).bind fun _ => (throws_ask _).bind fun _ => throws_clock
    split
    · rename_i s
      intro e he
      cases h : C.fromIso s with
      | error e' => rw [h] at he; cases he; exact .inr (.inl ⟨s, h⟩)
      | ok t => rw [h] at he; cases he
    · exact fails_ok _

theorem throws_bodies (l : List (Key × Val)) : Throws (CliErr C) (printBodies l) := by
  induction l with
  | nil => exact throws_pure _
  | cons x l ih =>
    obtain ⟨k, b⟩ := x
    refine Throws.bind ?_ fun _ => ih
    unfold printBody
    repeat' first
      | exact throws_say _
      | refine Throws.bind (throws_lift (fails_item _ _)) fun _ => ?_
      | refine Throws.bind (throws_lift (fails_member _ _)) fun _ => ?_
      | refine Throws.bind (throws_say _) fun _ => ?_

theorem throws_circuits (l : List (Key × Val)) : Throws (CliErr C) (printCircuits l) := by
  induction l with
  | nil => exact throws_pure _
  | cons x l ih =>
    obtain ⟨k, b⟩ := x
    refine Throws.bind (throws_lift (fails_item _ _)) fun i => ?_
    split
    · exact ih
    · exact (throws_lift (fails_item _ _)).bind fun _ => (throws_lift (fails_member _ _)).bind fun _ => (throws_lift (fails_item _ _)).bind fun _ =>
        (throws_say _).bind fun _ => ih

theorem throws_hosts (l : List Host) : Throws (CliErr C) (printHosts l) := by
  induction l with
  | nil => exact throws_pure _
  | cons x l ih => exact (throws_say _).bind fun _ => ih

theorem throws_dashboard : Throws (CliErr C) printDashboard :=
  throws_data.bind fun _ => (throws_say _).bind fun _ => (throws_lift (fails_getData _ _ _)).bind fun _ => (throws_lift (fails_items _)).bind fun _ =>
    (throws_bodies _).bind fun _ => (throws_lift (fails_getData _ _ _)).bind fun _ => (throws_lift (fails_items _)).bind fun _ =>
    (throws_circuits _).bind fun _ => throws_say _

theorem throws_connected (a : CliArgs) (host : ConnectArgs) : Throws (CliErr C) (cliConnected E C a host) := by
  unfold cliConnected
  refine (throws_ask _).bind fun _ => (throws_ask _).bind fun _ => throws_data.bind fun _ => (throws_lift (fails_inData _ _)).bind fun b => ?_
  split
  · split
    · exact (throws_say _).bind fun _ => throws_pure _
    · exact throws_dashboard.bind fun _ => (throws_ask _).bind fun _ => throws_pure _
    · exact .raise _ (.own (by decide))
    · rename_i c hc
      have h2 := (throws_cmd (E := E) (C := C) c a.verbose).bind (f := fun code => ask (.disconnect false) >>= fun _ => pure code)
        fun code => (throws_ask _).bind fun _ => throws_pure _
      simp only
      split
      · exact (throws_say _).bind fun _ => h2
      · exact h2
  · exact throws_pure _

theorem throws_body (a : CliArgs) (found : List Host) : Throws (CliErr C) (cliBody E C a found) := by
  unfold cliBody
  split
  · split
    · exact (throws_say _).bind fun _ => throws_pure _
    · split
      · exact (throws_hosts _).bind fun _ => throws_pure _
      · exact throws_connected _ _
  · exact throws_connected _ _

/-- **C96**, what is true: on any gateway, an exception that leaves the program is either one a call raised that is not a ScreenLogic
exception, or a KeyError, TypeError, ValueError or AttributeError of the program's own (data that are missing or of an unknown kind), or one of the
host's date functions. -/
theorem C96_partial {G : Gate} (a : CliArgs) (found : List Host) (e : PyErr) (h : (cli E C G a found).result = .error e) :
    (e.isScreenLogic = false ∧ ∃ c, (c, .error e) ∈ (cli E C G a found).calls) ∨
    e ∈ [PyErr.keyError, .typeError, .valueError, .attributeError] ∨ (∃ s, C.fromIso s = .error e) ∨ ∃ q, C.fromTimestampUtc q = .error e := by
  rw [cli_calls]
  have he : (exec G (cliBody E C a found) [] (.dict [])).result = .error e ∧ e.isScreenLogic = false := by
    unfold cli at h
    simp only at h
    split at h
    · rename_i e' he
      split at h
      · cases h
      · rename_i hs
        rw [he] at h ⊢
        cases h
        exact ⟨rfl, by simpa using hs⟩
    · rename_i n hn
      rw [hn] at h; cases h
  rcases throws_exec (throws_body (E := E) (C := C) a found) _ _ _ he.1 with h1 | h1
  · exact .inr h1
  · exact .inl ⟨he.2, h1⟩

/-- **C96**, on a real gateway: apart from the host's date functions, an exception that leaves the program is a struct.error, UnicodeError, ValueError, TypeError,
KeyError, IndexError or AttributeError, or the program was stopped (CancelledError); never one of the package's. -/
theorem C96_live_partial (hE : E.Sane) {clientId maxRetries : Int} {W : Nat → List Ev} (a : CliArgs) (found : List Host) (e : PyErr)
    (h : (cli E C (liveGate E clientId maxRetries W) a found).result = .error e) :
    e ∈ [PyErr.structError, .unicodeError, .valueError, .typeError, .keyError, .indexError, .attributeError, .cancelled] ∨
    (∃ s, C.fromIso s = .error e) ∨ ∃ q, C.fromTimestampUtc q = .error e := by
  rcases C96_partial a found e h with ⟨hs, c, hc⟩ | h1 | h1
  · left
    obtain ⟨pre, post, he⟩ := List.append_of_mem hc
    have hg := cli_gate he
    simp only [liveGate] at hg
    cases hr : resultOf E clientId maxRetries (history W 0 (pre.map (·.1))) c (W pre.length) with
    | none => rw [hr] at hg; cases hg; decide
    | some x =>
      rw [hr] at hg
      have hx : x = .error e := hg
      subst hx
      have := C92_exceptions E clientId maxRetries hE _ hr
      simp only [List.mem_cons, List.not_mem_nil, or_false] at this
      rcases this with rfl | rfl | rfl | rfl | rfl | rfl | rfl | rfl | rfl | rfl | rfl | rfl | rfl <;> first | decide | exact absurd hs (by decide)
  · left
    simp only [List.mem_cons, List.not_mem_nil, or_false] at h1
    rcases h1 with rfl | rfl | rfl | rfl <;> decide
  · exact .inr h1

end

/-- The same run as `pressRun`, but the adapter's status is empty. -/
def emptyEvs (n : Nat) : List Ev := if n = 3 then pollAt [] 3 10 else pressEvs n

/-- That run. -/
def emptyRun : Run Int := cli sampleEnv smallClock (liveGate sampleEnv 1 1 emptyEvs) (smallArgs (.cmd (.setCircuit 505 "on"))) []

/-- **C96** is false: `set circuit 505 on` presses the button, which the adapter acknowledges; then, the state of the circuit being unknown, it ends with
a KeyError, and without disconnecting. -/
theorem C96_refuted : emptyRun.result = .error .keyError ∧
    emptyRun.calls.map (·.2) = [.ok (.bool true), .ok .none, .ok .none, .ok .none] ∧
    (emptyRun.calls.map fun c => match c.1 with | .connect _ => "connect" | .update => "update" | .setCircuit (.int 505) (.int 1) => "press" | _ => "?") =
      ["connect", "update", "press", "update"] := ⟨by decide +kernel, by decide +kernel, by decide +kernel⟩

end SL
