import Verif.Spec.Display
import Verif.Props.CliEndProps
/-!
# C89: what the command line shows
-/
set_option linter.unusedVariables false

namespace SL

open Cli (ask say data lift exec)

section
variable {E : Env} {C : CliEnv} {G : Gate} {d : Val}

/-- The enumeration behind titles. -/
inductive EnumOf : Option Titles → Option EnumDef → Prop
  | none : EnumOf none none
  | onOff : EnumOf (some onOffTitles) (some enOnOff)
  | heatMode : EnumOf (some heatModeTitles) (some enHeatMode)
  | color : EnumOf (some colorTitles) (some enColorMode)
  | body : EnumOf (some bodyTitles) (some enBodyType)

theorem enum_pairs {ts : Titles} {e : EnumDef} (h : EnumOf (some ts) (some e)) {n : Int} {t : String} (hm : (n, t) ∈ ts) :
    ∃ m, e.nameOf n = some m ∧ e.title m = t := by
  have key : ts.all (fun x => match e.nameOf x.1 with | some m => e.title m == x.2 | none => false) = true := by
    cases h <;> decide +kernel
  have := List.all_eq_true.1 key _ hm
  simp only at this
  split at this
  · rename_i m hm'
    exact ⟨m, hm', by simpa using this⟩
  · cases this

theorem enum_known {ts : Titles} {e : EnumDef} (h : EnumOf (some ts) (some e)) {n : Int} {m : String} (hm : e.nameOf n = some m) :
    ∃ t, (n, t) ∈ ts := by
  have key : e.all (fun x => ts.any (fun y => y.1 == x.2)) = true := by
    cases h <;> decide +kernel
  simp only [EnumDef.nameOf, Option.map_eq_some_iff] at hm
  obtain ⟨x, hx, -⟩ := hm
  have h1 := List.mem_of_find?_eq_some hx
  have h2 := List.find?_some hx
  have := List.all_eq_true.1 key _ h1
  simp only [List.any_eq_true, beq_iff_eq] at this h2
  obtain ⟨y, hy, e1⟩ := this
  exact ⟨y.2, by rw [← h2, ← e1]; exact hy⟩

theorem item_look {x v : Val} {k : String} (h : x.look [.s k] = some v) : x.item k = .ok v := by
  cases x with
  | dict kv =>
    simp only [Val.look] at h
    simp only [Val.item]
    cases ha : aget (.s k) kv with
    | none => rw [ha] at h; cases h
    | some y => rw [ha] at h; simp only [Option.bind_some] at h; cases h; rfl
  | _ => cases h

theorem member_ok {e : EnumDef} {v : Val} {n : Int} {m : String} (hv : v.num = some (n : Rat)) (hm : e.nameOf n = some m) :
    enumMember e v = .ok (m, n) := by
  simp only [enumMember, hv]
  rw [if_pos (by rfl)]
  have : (n : Rat).num = n := rfl
  rw [this, hm]

theorem shows_format {x : Val} {verbose : Bool} {ts : Option Titles} {e : Option EnumDef} {o : Out} (he : EnumOf ts e) (h : Shows x verbose ts o) :
    vFormat verbose x e = .ok o := by
  cases h with
  | plain v hv => cases he; simp only [vFormat, item_look hv]; rfl
  | number v ts n t hv hn hm =>
    cases e with
    | none => cases he
    | some e =>
      obtain ⟨m, h1, h2⟩ := enum_pairs he hm
      simp only [vFormat, item_look hv]
      simp only [bind, Except.bind, member_ok hn h1]; rfl
  | named m v hm hv => cases he; simp only [vFormat, item_look hv, item_look hm]; rfl
  | titled m v ts n t hm hv hn hmem =>
    cases e with
    | none => cases he
    | some e =>
      obtain ⟨m', h1, h2⟩ := enum_pairs he hmem
      simp only [vFormat, item_look hv, item_look hm]
      simp only [bind, Except.bind, member_ok hn h1, h2]; rfl

/-- A command after a successful start: exactly what is printed. -/
theorem cmd_started {a : CliArgs} {found : List Host} {host : ConnectArgs} {c : CliCmd} {h : List (Call × Except PyErr Res)} {x : Val}
    (hu : Uses a found host) (hc : a.action = .cmd c) (h1 : Succeed G [] (.dict []) [.connect host, .update] h d)
    (hx : d.look [.s "controller"] = some x) :
    exec G (cliBody E C a found) [] (.dict []) =
      ⟨(exec G (c.prog E C a.verbose >>= fun code => ask (.disconnect false) >>= fun _ => pure code) h d).calls,
        (if a.verbose then [.line] else []) ++ (exec G (c.prog E C a.verbose >>= fun code => ask (.disconnect false) >>= fun _ => pure code) h d).out,
        (exec G (c.prog E C a.verbose >>= fun code => ask (.disconnect false) >>= fun _ => pure code) h d).result⟩ := by
  cases h1 with
  | cons _ _ _ d1 _ _ r1 _ g1 h2 =>
    cases h2 with
    | cons _ _ _ d2 _ _ r2 _ g2 h3 =>
      cases h3
      rw [uses_body hu (by rw [hc]; simp)]
      unfold cliConnected
      rw [exec_ask_ok g1, exec_ask_ok g2, exec_data]
      have hin : inData (.s "controller") d = .ok true := by
        cases d with
        | dict kv =>
          simp only [Val.look] at hx
          simp only [inData]
          cases ha : aget (.s "controller") kv with
          | none => rw [ha] at hx; cases hx
          | some y => rfl
        | _ => cases hx
      rw [hin, exec_ok, if_pos rfl, hc]
      simp only
      cases a.verbose with
      | false => rfl
      | true => rfl

/-- Showing an element. -/
theorem exec_show {β : Type} {h : List (Call × Except PyErr Res)} {verbose : Bool} {p : Path} {ts : Option Titles} {e : Option EnumDef} {x : Val} {o : Out}
    (he : EnumOf ts e) (hx : d.look p = some x) (hs : Shows x verbose ts o) (f : Int → Cli β) :
    exec G (showElement verbose p e >>= f) h d = ⟨(exec G (f 0) h d).calls, o :: (exec G (f 0) h d).out, (exec G (f 0) h d).result⟩ := by
  have hnn : x ≠ .null := by
    rintro rfl
    cases hs <;> simp_all [Val.look]
  unfold showElement
  simp only [cli_assoc]
  rw [exec_data, getData_look false hx hnn, exec_ok, shows_format he hs, exec_ok, exec_say]
  rfl

/-- The program of a command that shows one element. -/
theorem display_prog (hU : E.uni.Ascii) {verbose : Bool} {c : CliCmd} {cs : List Call} {p : Path} {ts : Option Titles} (hd : Display d c cs p ts)
    {h h' : List (Call × Except PyErr Res)} {d' : Val} (h2 : Succeed G h d cs h' d') {β : Type} (f : Int → Cli β) :
    ∃ e, EnumOf ts e ∧ exec G (c.prog E C verbose >>= f) h d = exec G (showElement verbose p e >>= f) h' d' := by
  obtain ⟨m1, m2, m3, m4⟩ := en_mem
  cases hd with
  | getCircuit n x hl =>
    cases h2
    obtain ⟨y, hy, hin⟩ := look_inData hl
    refine ⟨_, .onOff, ?_⟩
    simp only [CliCmd.prog, cli_assoc]
    rw [exec_data, hy, exec_ok, hin, exec_ok, if_pos rfl]
  | getHeatMode tb b hb =>
    cases h2
    refine ⟨_, .heatMode, ?_⟩
    simp only [CliCmd.prog, cli_assoc]
    rw [option_value hU m3 hb, exec_ok]
  | getHeatTemp tb b hb =>
    cases h2
    refine ⟨_, .none, ?_⟩
    simp only [CliCmd.prog, cli_assoc]
    rw [option_value hU m3 hb, exec_ok]
  | getHeatState tb b hb =>
    cases h2
    refine ⟨_, .onOff, ?_⟩
    simp only [CliCmd.prog, cli_assoc]
    rw [option_value hU m3 hb, exec_ok]
  | getCurrentTemp tb b hb =>
    cases h2
    refine ⟨_, .none, ?_⟩
    simp only [CliCmd.prog, cli_assoc]
    rw [option_value hU m3 hb, exec_ok]
  | getAutoDst =>
    cases h2 with
    | cons _ _ _ d1 _ _ r1 _ g1 h3 =>
    cases h3
    refine ⟨_, .none, ?_⟩
    simp only [CliCmd.prog, cli_assoc]
    rw [exec_ask_ok g1]
  | setCircuit n t v x hl hc =>
    cases h2 with
    | cons _ _ _ d1 _ _ r1 _ g1 h3 =>
    cases h3 with
    | cons _ _ _ d2 _ _ r2 _ g2 h4 =>
    cases h4
    obtain ⟨y, hy, hin⟩ := look_inData hl
    refine ⟨_, .onOff, ?_⟩
    simp only [CliCmd.prog, cli_assoc]
    rw [option_value hU m1 hc, exec_ok, exec_data, hy, exec_ok, hin, exec_ok, if_pos rfl, cli_assoc, exec_ask_ok g1, cli_assoc, exec_ask_ok g2]
  | setHeatMode tb tm b m hb hm =>
    cases h2 with
    | cons _ _ _ d1 _ _ r1 _ g1 h3 =>
    cases h3 with
    | cons _ _ _ d2 _ _ r2 _ g2 h4 =>
    cases h4
    refine ⟨_, .heatMode, ?_⟩
    simp only [CliCmd.prog, cli_assoc]
    rw [option_value hU m3 hb, exec_ok, option_value hU m4 hm, exec_ok, exec_ask_ok g1, exec_ask_ok g2]
  | setHeatTemp tb b t hb ht =>
    cases h2 with
    | cons _ _ _ d1 _ _ r1 _ g1 h3 =>
    cases h3 with
    | cons _ _ _ d2 _ _ r2 _ g2 h4 =>
    cases h4
    refine ⟨_, .none, ?_⟩
    simp only [CliCmd.prog, cli_assoc]
    rw [option_value hU m3 hb, exec_ok, if_pos ht, cli_assoc, exec_ask_ok g1, cli_assoc, exec_ask_ok g2]
  | keepHeatTemp tb b hb =>
    cases h2
    refine ⟨_, .none, ?_⟩
    simp only [CliCmd.prog, cli_assoc]
    rw [option_value hU m3 hb, exec_ok, if_neg (by simp)]

/-- **C89** A command that shows one element (the get commands; set circuit, heat mode, heat temperature): it connects, updates, makes exactly
its calls, prints the element as it is then known (its number or value, with `--verbose` the name and the title or value), nothing
else, disconnects and ends with status 0. -/
theorem C89_shows (hU : E.uni.Ascii) {a : CliArgs} {found : List Host} {host : ConnectArgs} {c : CliCmd} {h h' : List (Call × Except PyErr Res)}
    {x y d' d'' : Val} {cs : List Call} {p : Path} {ts : Option Titles} {o : Out} {r : Res} (hu : Uses a found host) (hc : a.action = .cmd c)
    (h1 : Succeed G [] (.dict []) [.connect host, .update] h d) (hx : d.look [.s "controller"] = some x) (hd : Display d c cs p ts)
    (h2 : Succeed G h d cs h' d') (h3 : G h' (.disconnect false) = (.ok r, d'')) (hy : d'.look p = some y) (ho : Shows y a.verbose ts o) :
    cli E C G a found = ⟨h' ++ [(.disconnect false, .ok r)], (if a.verbose then [.line] else []) ++ [o], .ok 0⟩ := by
  obtain ⟨e, he, hp⟩ := display_prog (E := E) (C := C) (verbose := a.verbose) hU hd h2 (fun code => ask (.disconnect false) >>= fun _ => pure code)
  unfold cli
  rw [cmd_started hu hc h1 hx, hp, exec_show he hy ho, exec_ask_ok h3]
  rfl

theorem format_error {x v : Val} {verbose : Bool} {ts : Titles} {e : EnumDef} (he : EnumOf (some ts) (some e)) {m : Val}
    (hm : x.look [.s "name"] = some m) (hv : x.look [.s "value"] = some v) (hn : ∀ (n : Int) t, (n, t) ∈ ts → v.num ≠ some (n : Rat)) :
    vFormat verbose x (some e) = .error .valueError := by
  have hme : enumMember e v = .error .valueError := by
    unfold enumMember
    split
    · rename_i q hq
      split
      · rename_i hden
        split
        · rename_i nm hnm
          obtain ⟨t, ht⟩ := enum_known he hnm
          refine absurd ?_ (hn _ _ ht)
          rw [hq]
          congr 1
          exact Rat.ext rfl hden
        · rfl
      · rfl
    · rfl
  cases verbose
  · simp only [vFormat, item_look hv]
    simp only [bind, Except.bind, hme]; rfl
  · simp only [vFormat, item_look hv, item_look hm]
    simp only [bind, Except.bind, hme]; rfl

/-- **C89** If the value is none of the options known to the command line, nothing is printed for it and the program ends with a ValueError
(without disconnecting). -/
theorem C89_odd (hU : E.uni.Ascii) {a : CliArgs} {found : List Host} {host : ConnectArgs} {c : CliCmd} {h h' : List (Call × Except PyErr Res)}
    {x y d' m v : Val} {cs : List Call} {p : Path} {ts : Titles} (hu : Uses a found host) (hc : a.action = .cmd c)
    (h1 : Succeed G [] (.dict []) [.connect host, .update] h d) (hx : d.look [.s "controller"] = some x) (hd : Display d c cs p (some ts))
    (h2 : Succeed G h d cs h' d') (hy : d'.look p = some y) (hm : y.look [.s "name"] = some m) (hv : y.look [.s "value"] = some v)
    (hn : ∀ (n : Int) t, (n, t) ∈ ts → v.num ≠ some (n : Rat)) :
    cli E C G a found = ⟨h', if a.verbose then [.line] else [], .error .valueError⟩ := by
  obtain ⟨e, he, hp⟩ := display_prog (E := E) (C := C) (verbose := a.verbose) hU hd h2 (fun code => ask (.disconnect false) >>= fun _ => pure code)
  cases e with
  | none => cases he
  | some e =>
    have hnn : y ≠ .null := by rintro rfl; cases hm
    have hs : exec G (showElement a.verbose p (some e) >>= fun code => ask (.disconnect false) >>= fun _ => pure code) h' d' =
        ⟨h', [], .error .valueError⟩ := by
      unfold showElement
      simp only [cli_assoc]
      rw [exec_data, getData_look false hy hnn, exec_ok, format_error he hm hv hn, exec_error]
    unfold cli
    rw [cmd_started hu hc h1 hx, hp, hs]
    simp [PyErr.isScreenLogic, PyErr.isComm]

/-- **C89** If the gateway does not know the element, nothing is printed for it and the program ends with a TypeError (without
disconnecting). -/
theorem C89_unknown (hU : E.uni.Ascii) {a : CliArgs} {found : List Host} {host : ConnectArgs} {c : CliCmd} {h h' : List (Call × Except PyErr Res)}
    {x d' : Val} {cs : List Call} {p : Path} {ts : Option Titles} (hu : Uses a found host) (hc : a.action = .cmd c)
    (h1 : Succeed G [] (.dict []) [.connect host, .update] h d) (hx : d.look [.s "controller"] = some x) (hd : Display d c cs p ts)
    (h2 : Succeed G h d cs h' d') (hy : getData false p d' = .ok .null) :
    cli E C G a found = ⟨h', if a.verbose then [.line] else [], .error .typeError⟩ := by
  obtain ⟨e, he, hp⟩ := display_prog (E := E) (C := C) (verbose := a.verbose) hU hd h2 (fun code => ask (.disconnect false) >>= fun _ => pure code)
  have hf : vFormat a.verbose .null e = .error .typeError := by
    cases a.verbose <;> rfl
  have hs : exec G (showElement a.verbose p e >>= fun code => ask (.disconnect false) >>= fun _ => pure code) h' d' =
      ⟨h', [], .error .typeError⟩ := by
    unfold showElement
    simp only [cli_assoc]
    rw [exec_data, hy, exec_ok, hf, exec_error]
  unfold cli
  rw [cmd_started hu hc h1 hx, hp, hs]
  simp [PyErr.isScreenLogic, PyErr.isComm]

/-- **C89** Setting the colour lights prints the number of the command or, with `--verbose`, its title. -/
theorem C89_color (hU : E.uni.Ascii) {a : CliArgs} {found : List Host} {host : ConnectArgs} {t title : String} {n : Int}
    {h h' : List (Call × Except PyErr Res)} {x d' d'' : Val} {r : Res} (hu : Uses a found host) (hc : a.action = .cmd (.setColorLights t))
    (h1 : Succeed G [] (.dict []) [.connect host, .update] h d) (hx : d.look [.s "controller"] = some x) (ht : Chosen enColorMode t n)
    (htl : (n, title) ∈ colorTitles) (h2 : Succeed G h d [.setColorLights (.int n)] h' d') (h3 : G h' (.disconnect false) = (.ok r, d'')) :
    cli E C G a found = ⟨h' ++ [(.disconnect false, .ok r)],
      if a.verbose then [.line, .value (.str title)] else [.value (.int n)], .ok 0⟩ := by
  obtain ⟨m1, m2, m3, m4⟩ := en_mem
  cases h2 with
  | cons _ _ _ d1 _ _ r1 _ g1 h4 =>
  cases h4
  obtain ⟨m, hm, hmt⟩ := enum_pairs .color htl
  unfold cli
  rw [cmd_started hu hc h1 hx]
  simp only [CliCmd.prog, cli_assoc]
  rw [option_value hU m2 ht, exec_ok, exec_ask_ok g1]
  cases a.verbose with
  | false =>
    rw [if_neg (by simp), cli_assoc, exec_say, exec_pure_bind, exec_ask_ok h3]
    rfl
  | true =>
    rw [if_pos rfl, cli_assoc, member_ok (v := .int n) rfl hm, exec_ok, cli_assoc, exec_say, exec_pure_bind, exec_ask_ok h3, hmt]
    rfl

/-- **C89** The clock: `get date-time` asks for it and shows it; `set date-time` asks for it, sets it, asks again and shows it. -/
theorem C89_clock {a : CliArgs} {found : List Host} {host : ConnectArgs} {c : CliCmd} {cs : List Call} {h h' : List (Call × Except PyErr Res)}
    {x v d' d'' : Val} {q : Rat} {t : DateTime} {r : Res} (hu : Uses a found host) (hc : a.action = .cmd c)
    (h1 : Succeed G [] (.dict []) [.connect host, .update] h d) (hx : d.look [.s "controller"] = some x)
    (hcs : (c = .getDateTime ∧ cs = [.getDatetime]) ∨ ∃ s f, Wants C d c (.setDateTime s f) ∧ cs = [.getDatetime, .setDateTime s f, .getDatetime])
    (h2 : Succeed G h d cs h' d') (h3 : G h' (.disconnect false) = (.ok r, d''))
    (hv : d'.look [.s "controller", .s "date_time", .s "timestamp"] = some v) (hq : v.num = some q) (ht : C.fromTimestampUtc q = .ok t) :
    cli E C G a found = ⟨h' ++ [(.disconnect false, .ok r)], (if a.verbose then [.line] else []) ++ [.date t], .ok 0⟩ := by
  have hclock : exec G (showClock C >>= fun code => ask (.disconnect false) >>= fun _ => pure code) h' d' =
      ⟨h' ++ [(.disconnect false, .ok r)], [.date t], .ok 0⟩ := by
    unfold showClock
    simp only [cli_assoc]
    rw [exec_data, getData_look true hv (by rintro rfl; cases hq), exec_ok]
    simp only [hq, cli_assoc]
    rw [ht, exec_ok, exec_say, exec_pure_bind, exec_ask_ok h3]
    rfl
  have hp : exec G (c.prog E C a.verbose >>= fun code => ask (.disconnect false) >>= fun _ => pure code) h d =
      ⟨h' ++ [(.disconnect false, .ok r)], [.date t], .ok 0⟩ := by
    rcases hcs with ⟨rfl, rfl⟩ | ⟨s, f, hw, rfl⟩
    · cases h2 with
      | cons _ _ _ d1 _ _ r1 _ g1 h4 =>
      cases h4
      simp only [CliCmd.prog, cli_assoc]
      rw [exec_ask_ok g1, hclock]
    · cases h2 with
      | cons _ _ _ d1 _ _ r1 _ g1 h4 =>
      cases h4 with
      | cons _ _ _ d2 _ _ r2 _ g2 h5 =>
      cases h5 with
      | cons _ _ _ d3 _ _ r3 _ g3 h6 =>
      cases h6
      cases hw with
      | date s' t' dst v' hi ha =>
        obtain ⟨rfl, -⟩ := arg_eq ha
        simp only [CliCmd.prog, cli_assoc, hi, Except.map]
        rw [exec_ok, if_neg (by simp), optStr_elim, exec_ask_ok g1, exec_ask_ok g2, exec_ask_ok g3, hclock]
      | flag s' =>
        simp only [CliCmd.prog, cli_assoc]
        rw [exec_ok, if_neg (by simp [optStr]), exec_ask_ok g1, optStr, exec_ask_ok g2, exec_ask_ok g3, hclock]
      | now =>
        simp only [CliCmd.prog, cli_assoc]
        rw [exec_ok, if_pos ⟨rfl, rfl⟩, exec_ask_ok g1, optStr, exec_ask_ok g2, exec_ask_ok g3, hclock]
  unfold cli
  rw [cmd_started hu hc h1 hx, hp]

theorem listed_changed {verbose : Bool} {kv : List (Key × Val)} {args : List (String × Val)} {l : List Out} (h : Listed verbose (.dict kv) args l) :
    changed verbose (.dict kv) args = .ok l := by
  have hin : ∀ k (x : Val), Val.look [.s k] (.dict kv) = some x → inData (.s k) (.dict kv) = .ok true := by
    intro k x hx
    simp only [Val.look] at hx
    simp only [inData]
    cases ha : aget (.s k) kv with
    | none => rw [ha] at hx; cases hx
    | some y => rfl
  induction h with
  | nil => rfl
  | shown k v x o rest l hv hx hs _ ih =>
    simp only [changed, hin k x hx, bind, Except.bind, if_neg hv, item_look hx, shows_format .none hs, ih]
    rfl
  | left k rest l _ ih =>
    simp only [changed, bind, Except.bind, inData]
    split
    · rw [if_pos trivial]; exact ih
    · exact ih
  | unknown k v rest l hx _ ih =>
    have : inData (.s k) (.dict kv) = .ok false := by
      simp only [Val.look] at hx
      simp only [inData]
      cases ha : aget (.s k) kv with
      | none => rfl
      | some y => rw [ha] at hx; simp at hx
    simp only [changed, bind, Except.bind, this]
    exact ih

/-- **C89** Setting the chlorinator shows the settings given, as the chlorinator then reports them. -/
theorem C89_chlorinator {a : CliArgs} {found : List Host} {host : ConnectArgs} {c : CliCmd} {h h' : List (Call × Except PyErr Res)}
    {x d' d'' p s st t : Val} {kv : List (Key × Val)} {l : List Out} {r : Res} (hu : Uses a found host) (hc : a.action = .cmd c)
    (h1 : Succeed G [] (.dict []) [.connect host, .update] h d) (hx : d.look [.s "controller"] = some x) (hw : Wants C d c (.setScg p s st t))
    (h2 : Succeed G h d [.setScg p s st t, .getScg] h' d') (h3 : G h' (.disconnect false) = (.ok r, d''))
    (hv : d'.look [.s "scg", .s "configuration"] = some (.dict kv))
    (hl : Listed a.verbose (.dict kv) [("pool_setpoint", p), ("spa_setpoint", s), ("super_chlorinate", st), ("super_chlor_timer", t)] l) :
    cli E C G a found = ⟨h' ++ [(.disconnect false, .ok r)], (if a.verbose then [.line] else []) ++ [.many l], .ok 0⟩ := by
  cases h2 with
  | cons _ _ _ d1 _ _ r1 _ g1 h4 =>
  cases h4 with
  | cons _ _ _ d2 _ _ r2 _ g2 h5 =>
  cases h5
  have hp : ∀ hne : ¬ (p = .null ∧ s = .null ∧ st = .null ∧ t = .null),
      exec G (cliSetScg a.verbose p s st t >>= fun code => ask (.disconnect false) >>= fun _ => pure code) h d =
      ⟨(h ++ [(.setScg p s st t, .ok r1)] ++ [(.getScg, .ok r2)]) ++ [(.disconnect false, .ok r)], [.many l], .ok 0⟩ := by
    intro hne
    unfold cliSetScg
    rw [if_neg hne]
    simp only [cli_assoc]
    rw [exec_ask_ok g1, exec_ask_ok g2, exec_data, getData_look false hv (by simp), exec_ok, listed_changed hl, exec_ok, exec_say, exec_pure_bind,
      exec_ask_ok h3]
    rfl
  unfold cli
  rw [cmd_started hu hc h1 hx]
  cases hw with
  | scg pool spa _ _ ha hb hne =>
    obtain ⟨e1, n1⟩ := arg_eq ha
    obtain ⟨e2, n2⟩ := arg_eq hb
    simp only [CliCmd.prog]
    rw [optInt_elim, optInt_elim, ← e1, ← e2, hp (by
      rintro ⟨k1, k2, -, -⟩
      rcases hne with h | h
      · exact n1 h (by simp) k1
      · exact n2 h (by simp) k2)]
  | super st' time _ _ ha hb hne =>
    obtain ⟨e1, n1⟩ := arg_eq ha
    obtain ⟨e2, n2⟩ := arg_eq hb
    simp only [CliCmd.prog]
    rw [optStr_elim, optInt_elim, ← e1, ← e2, hp (by
      rintro ⟨-, -, k1, k2⟩
      rcases hne with h | h
      · exact n1 h (by simp) k1
      · exact n2 h (by simp) k2)]

/-- **C89** Setting the chemistry shows the settings given, as the chemistry controller then reports them. -/
theorem C89_chemistry {a : CliArgs} {found : List Host} {host : ConnectArgs} {c : CliCmd} {h h' : List (Call × Except PyErr Res)}
    {x d' d'' ph orp ca ta cya tds : Val} {kv : List (Key × Val)} {l : List Out} {r : Res} (hu : Uses a found host) (hc : a.action = .cmd c)
    (h1 : Succeed G [] (.dict []) [.connect host, .update] h d) (hx : d.look [.s "controller"] = some x)
    (hw : Wants C d c (.setChem ph orp ca ta cya tds)) (h2 : Succeed G h d [.setChem ph orp ca ta cya tds, .getChemistry] h' d')
    (h3 : G h' (.disconnect false) = (.ok r, d'')) (hv : d'.look [.s "intellichem", .s "configuration"] = some (.dict kv))
    (hl : Listed a.verbose (.dict kv) [("ph_setpoint", ph), ("orp_setpoint", orp), ("calcium_hardness", ca), ("total_alkalinity", ta), ("cya", cya),
      ("salt_tds_ppm", tds)] l) :
    cli E C G a found = ⟨h' ++ [(.disconnect false, .ok r)], (if a.verbose then [.line] else []) ++ [.many l], .ok 0⟩ := by
  cases h2 with
  | cons _ _ _ d1 _ _ r1 _ g1 h4 =>
  cases h4 with
  | cons _ _ _ d2 _ _ r2 _ g2 h5 =>
  cases h5
  have hp : ∀ hne : ¬ (ph = .null ∧ orp = .null ∧ ca = .null ∧ ta = .null ∧ cya = .null ∧ tds = .null),
      exec G (cliSetChem a.verbose ph orp ca ta cya tds >>= fun code => ask (.disconnect false) >>= fun _ => pure code) h d =
      ⟨(h ++ [(.setChem ph orp ca ta cya tds, .ok r1)] ++ [(.getChemistry, .ok r2)]) ++ [(.disconnect false, .ok r)], [.many l], .ok 0⟩ := by
    intro hne
    unfold cliSetChem
    rw [if_neg hne]
    simp only [cli_assoc]
    rw [exec_ask_ok g1, exec_ask_ok g2, exec_data, getData_look false hv (by simp), exec_ok, listed_changed hl, exec_ok, exec_say, exec_pure_bind,
      exec_ask_ok h3]
    rfl
  unfold cli
  rw [cmd_started hu hc h1 hx]
  cases hw with
  | chemSet ph' orp' _ _ ha hb hne =>
    obtain ⟨e1, n1⟩ := arg_eq ha
    obtain ⟨e2, n2⟩ := arg_eq hb
    simp only [CliCmd.prog]
    rw [optRat_elim, optInt_elim, ← e1, ← e2, hp (by
      rintro ⟨k1, k2, -⟩
      rcases hne with h | h
      · exact n1 h (by simp) k1
      · exact n2 h (by simp) k2)]
  | chemVal ca' ta' cya' tds' _ _ _ _ ha hb hc' hd' hne =>
    obtain ⟨e1, n1⟩ := arg_eq ha
    obtain ⟨e2, n2⟩ := arg_eq hb
    obtain ⟨e3, n3⟩ := arg_eq hc'
    obtain ⟨e4, n4⟩ := arg_eq hd'
    simp only [CliCmd.prog]
    rw [optInt_elim, optInt_elim, optInt_elim, optInt_elim, ← e1, ← e2, ← e3, ← e4, hp (by
      rintro ⟨-, -, k1, k2, k3, k4⟩
      rcases hne with h | h | h | h
      · exact n1 h (by simp) k1
      · exact n2 h (by simp) k2
      · exact n3 h (by simp) k3
      · exact n4 h (by simp) k4)]

/-- **C89** `get json` prints all the data, as they are after the update. -/
theorem C89_json {a : CliArgs} {found : List Host} {host : ConnectArgs} {h : List (Call × Except PyErr Res)} {x d'' : Val} {r : Res}
    (hu : Uses a found host) (hc : a.action = .cmd .getJson) (h1 : Succeed G [] (.dict []) [.connect host, .update] h d)
    (hx : d.look [.s "controller"] = some x) (h3 : G h (.disconnect false) = (.ok r, d'')) :
    cli E C G a found = ⟨h ++ [(.disconnect false, .ok r)], (if a.verbose then [.line] else []) ++ [.value d], .ok 0⟩ := by
  unfold cli
  rw [cmd_started hu hc h1 hx]
  simp only [CliCmd.prog, cli_assoc]
  rw [exec_data, exec_say, exec_pure_bind, exec_ask_ok h3]
  rfl

theorem item_two {b v : Val} {k1 k2 : String} (h : b.look [.s k1, .s k2] = some v) : ∃ x, b.item k1 = .ok x ∧ x.item k2 = .ok v := by
  cases b with
  | dict kv =>
    simp only [Val.look] at h
    cases ha : aget (.s k1) kv with
    | none => rw [ha] at h; cases h
    | some y =>
      rw [ha] at h
      simp only [Option.bind_some] at h
      refine ⟨y, by simp only [Val.item, ha], item_look ?_⟩
      exact h
  | _ => cases h

theorem ok_ext {α : Type} {a b : α} {x : Except PyErr α} (h1 : x = .ok a) (h2 : x = .ok b) : a = b := by
  rw [h1] at h2; cases h2; rfl

theorem exec_body {β : Type} {h : List (Call × Except PyErr Res)} {b : Val} {l : List Out} (hb : BodyShown b l) (f : Unit → Cli β) :
    exec G (printBody b >>= f) h d = ⟨(exec G (f ()) h d).calls, l ++ (exec G (f ()) h d).out, (exec G (f ()) h d).result⟩ := by
  obtain ⟨bt, v, u, n1, v1, n2, v2, n3, v3, k, k2, k3, t, t2, t3, e1, e2, e3, e4, e5, e6, e7, e8, e9, e10, e11, e12, e13, e14, e15⟩ := hb
  obtain ⟨lt, i1, i2⟩ := item_two e4
  obtain ⟨lt', i3, i4⟩ := item_two e5
  obtain rfl := ok_ext i1 i3
  obtain ⟨sp, j1, j2⟩ := item_two e6
  obtain ⟨sp', j3, j4⟩ := item_two e7
  obtain rfl := ok_ext j1 j3
  obtain ⟨hs, p1, p2⟩ := item_two e8
  obtain ⟨hs', p3, p4⟩ := item_two e9
  obtain rfl := ok_ext p1 p3
  obtain ⟨hm, q1, q2⟩ := item_two e12
  obtain ⟨hm', q3, q4⟩ := item_two e13
  obtain rfl := ok_ext q1 q3
  obtain ⟨a1, b1, c1⟩ := enum_pairs .body e3
  obtain ⟨a2, b2, c2⟩ := enum_pairs .heatMode e11
  obtain ⟨a3, b3, c3⟩ := enum_pairs .heatMode e15
  unfold printBody
  simp only [cli_assoc]
  rw [item_look e1, exec_ok, member_ok e2 b1, exec_ok, i1, exec_ok, i2, exec_ok, i4, exec_ok, exec_say, j1, exec_ok, j2, exec_ok, j4, exec_ok, exec_say,
    p1, exec_ok, p2, exec_ok, p4, exec_ok, member_ok e10 b2, exec_ok, exec_say, q1, exec_ok, q2, exec_ok, q4, exec_ok, member_ok e14 b3, exec_ok, exec_say,
    exec_say, c1, c2, c3]
  rfl

theorem exec_bodies {l : List (Key × Val)} {o : List Out} (hb : BodiesShown l o) {β : Type} {h : List (Call × Except PyErr Res)} (f : Unit → Cli β) :
    exec G (printBodies l >>= f) h d = ⟨(exec G (f ()) h d).calls, o ++ (exec G (f ()) h d).out, (exec G (f ()) h d).result⟩ := by
  induction hb with
  | nil => rfl
  | cons k b rest l1 l2 h1 _ ih =>
    unfold printBodies
    rw [cli_assoc, exec_body h1, ih, List.append_assoc]

theorem exec_circuits {l : List (Key × Val)} {o : List Out} (hb : CircuitsShown l o) {β : Type} {h : List (Call × Except PyErr Res)} (f : Unit → Cli β) :
    exec G (printCircuits l >>= f) h d = ⟨(exec G (f ()) h d).calls, o ++ (exec G (f ()) h d).out, (exec G (f ()) h d).result⟩ := by
  induction hb with
  | nil => rfl
  | hidden k c i rest l hi h5 _ ih =>
    unfold printCircuits
    rw [cli_assoc, item_look hi, exec_ok, if_pos h5, ih]
  | shown k c i v m n t rest l hi h5 hv hn ht hm _ ih =>
    obtain ⟨a1, b1, c1⟩ := enum_pairs .onOff ht
    unfold printCircuits
    rw [cli_assoc, item_look hi, exec_ok, if_neg h5, cli_assoc, item_look hv, exec_ok, cli_assoc, member_ok hn b1, exec_ok, cli_assoc, item_look hm, exec_ok,
      cli_assoc, exec_say, ih, c1]
    rfl

/-- **C89** The dashboard: after connecting and updating, every body and every circuit that is to be shown, in order, as then known; then it
disconnects and ends with status 0. -/
theorem C89_dashboard {a : CliArgs} {found : List Host} {host : ConnectArgs} {h : List (Call × Except PyErr Res)} {x d'' : Val} {r : Res}
    {bodies circuits : List (Key × Val)} {lb lc : List Out} (hu : Uses a found host) (hc : a.action = .dashboard)
    (h1 : Succeed G [] (.dict []) [.connect host, .update] h d) (hx : d.look [.s "controller"] = some x)
    (h3 : G h (.disconnect false) = (.ok r, d'')) (hb : d.look [.s "body"] = some (.dict bodies)) (hcs : d.look [.s "circuit"] = some (.dict circuits))
    (hlb : BodiesShown bodies lb) (hlc : CircuitsShown circuits lc) :
    cli E C G a found = ⟨h ++ [(.disconnect false, .ok r)], [.line] ++ lb ++ lc ++ [.line], .ok 0⟩ := by
  have hin : inData (.s "controller") d = .ok true := by
    cases d with
    | dict kv =>
      simp only [Val.look] at hx
      simp only [inData]
      cases ha : aget (.s "controller") kv with
      | none => rw [ha] at hx; cases hx
      | some y => rfl
    | _ => cases hx
  have key : exec G (cliBody E C a found) [] (.dict []) = ⟨h ++ [(.disconnect false, .ok r)], [.line] ++ lb ++ lc ++ [.line], .ok 0⟩ := by
    cases h1 with
    | cons _ _ _ d1 _ _ r1 _ g1 h2 =>
    cases h2 with
    | cons _ _ _ d2 _ _ r2 _ g2 h4 =>
    cases h4
    rw [uses_body hu (by rw [hc]; simp)]
    unfold cliConnected
    rw [exec_ask_ok g1, exec_ask_ok g2, exec_data, hin, exec_ok, if_pos rfl, hc]
    simp only [printDashboard, cli_assoc]
    rw [exec_data, exec_say, getData_look false hb (by simp), exec_ok, dictItems, exec_ok, exec_bodies hlb, getData_look false hcs (by simp), exec_ok,
      dictItems, exec_ok, exec_circuits hlc, exec_say, exec_ask_ok h3]
    simp [exec_pure]
  unfold cli
  rw [key]

end

/-! ## Witnesses -/

/-- The history of a command line that connected and updated. -/
def startedCalls : List (Call × Except PyErr Res) :=
  [(.connect { ip := some "10.0.0.2", port := some 80 }, .ok .none), (.update, .ok .none)]

theorem small_started (state : Int) :
    Succeed (smallGate state) [] (.dict []) [.connect { ip := some "10.0.0.2", port := some 80 }, .update] startedCalls (smallData state) :=
  .cons _ _ _ _ _ _ .none _ rfl (.cons _ _ _ _ _ _ .none _ rfl (.nil _ _))

/-- The hypotheses of `C89_shows` are met: `set heat-mode pool heater --verbose` shows the pool's heat mode. -/
theorem C89_witness :
    cli sampleEnv smallClock (smallGate 1) { smallArgs (.cmd (.setHeatMode "pool" "heater")) with verbose := true } [] =
      ⟨startedCalls ++ [(.setHeatMode (.int 0) (.int 3), .ok .none), (.update, .ok .none), (.disconnect false, .ok .none)],
        [.line, .titled (.str "Pool Heat Mode") "Heater"], .ok 0⟩ :=
  C89_shows (C := smallClock) (G := smallGate 1) (d := smallData 1) (d' := smallData 1) (d'' := smallData 1) (h := startedCalls)
    (a := { smallArgs (.cmd (.setHeatMode "pool" "heater")) with verbose := true }) (found := []) (r := .none) (o := .titled (.str "Pool Heat Mode") "Heater")
    (h' := startedCalls ++ [(.setHeatMode (.int 0) (.int 3), .ok .none), (.update, .ok .none)]) (ts := some heatModeTitles)
    sample_ascii (.given "10.0.0.2" rfl (by decide)) rfl (small_started 1) (x := .dict []) rfl
    (.setHeatMode "pool" "heater" 0 3 small_pool ⟨"HEATER", by decide, .inr (by decide +kernel)⟩)
    (.cons _ _ _ (smallData 1) _ _ .none _ rfl (.cons _ _ _ (smallData 1) _ _ .none _ rfl (.nil _ _))) rfl
    (y := .dict [(.s "name", .str "Pool Heat Mode"), (.s "value", .int 3)]) rfl
    (.titled (.str "Pool Heat Mode") (.int 3) _ 3 "Heater" rfl rfl rfl (by decide))

/-- The data of a controller with a chlorinator. -/
def chlorData : Val :=
  .dict [(.s "controller", .dict []), (.s "scg", .dict [(.s "configuration", .dict [
    (.s "pool_setpoint", .dict [(.s "name", .str "Pool Setpoint"), (.s "value", .int 55)]),
    (.s "spa_setpoint", .dict [(.s "name", .str "Spa Setpoint"), (.s "value", .int 5)])])])]

/-- The hypotheses of `C89_chlorinator` are met: `set salt-generator --pool 55` shows the pool's set point and not the spa's. -/
theorem C89_witness_chlorinator :
    cli sampleEnv smallClock (fun _ _ => (.ok .none, chlorData)) (smallArgs (.cmd (.setScg (some 55) none))) [] =
      ⟨startedCalls ++ [(.setScg (.int 55) .null .null .null, .ok .none), (.getScg, .ok .none), (.disconnect false, .ok .none)],
        [.many [.value (.int 55)]], .ok 0⟩ :=
  C89_chlorinator (d := chlorData) (d'' := chlorData) (.given "10.0.0.2" rfl (by decide)) rfl
    (.cons _ _ _ _ _ _ .none _ rfl (.cons _ _ _ _ _ _ .none _ rfl (.nil _ _))) (x := .dict []) rfl
    (.scg (some 55) none _ _ (.given 55) .left (.inl (by simp)))
    (.cons _ _ _ _ _ _ .none _ rfl (.cons _ _ _ _ _ _ .none _ rfl (.nil _ _))) rfl rfl
    (.shown _ _ (.dict [(.s "name", .str "Pool Setpoint"), (.s "value", .int 55)]) _ _ _ (by simp) rfl (.plain _ rfl)
      (.left _ _ _ (.left _ _ _ (.left _ _ _ .nil))))

/-- The hypotheses of `C89_dashboard` are met by a small gateway. -/
theorem C89_witness_dashboard :
    cli sampleEnv smallClock (smallGate 1) (smallArgs .dashboard) [] =
      ⟨startedCalls ++ [(.disconnect false, .ok .none)],
        [.line] ++ [.temperature "Pool" (.int 80) (.str "F"), .named (.str "Pool Heat Set Point") (.int 82), .titled (.str "Pool Heat") "Solar",
          .titled (.str "Pool Heat Mode") "Heater", .line] ++ [.circuit (.i 505) "On" (.str "Pool")] ++ [.line], .ok 0⟩ :=
  C89_dashboard (C := smallClock) (G := smallGate 1) (d := smallData 1) (d'' := smallData 1) (h := startedCalls) (a := smallArgs .dashboard) (found := [])
    (r := .none) (.given "10.0.0.2" rfl (by decide)) rfl (small_started 1) (x := .dict []) rfl rfl rfl rfl
    (BodiesShown.cons (.i 0) _ [] _ [] (.mk (.int 0) (.int 80) (.str "F") (.str "Pool Heat Set Point") (.int 82) (.str "Pool Heat") (.int 1)
      (.str "Pool Heat Mode") (.int 3) 0 1 3 "Pool" "Solar" "Heater" rfl rfl (by decide) rfl rfl rfl rfl rfl rfl rfl (by decide) rfl rfl rfl (by decide)) .nil)
    (.shown (.i 505) _ (.int 0) (.int 1) (.str "Pool") 1 "On" [] [] rfl (by simp [Val.num]) rfl rfl (by decide) rfl .nil)

end SL
