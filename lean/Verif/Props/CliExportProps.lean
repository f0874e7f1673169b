import Verif.Model.CliExport
import Verif.Props.CliLiveProps
import Verif.Props.ExportLiveProps
import Verif.Props.SheetProps
import Verif.Props.KnownProps
set_option linter.unusedVariables false
/-!
# C97: the export command
-/
namespace SL
open Spec

/-- What the name of the exported file is made of: the adapter's firmware, the controller's model and its equipment flags are known. -/
structure NamesKnown (d : Val) : Prop where
  firmware : ∃ v, v ≠ .null ∧ getValue false [.s "adapter", .s "firmware"] d = .ok v
  model : ∃ v, v ≠ .null ∧ getValue false [.s "controller", .s "model"] d = .ok v
  flags : ∃ n, getData false [.s "controller", .s "equipment", .s "flags"] d = .ok (.int n)

/-- Lowering a text makes no new punctuation. -/
def PlainLower (lower : List Char → List Char) : Prop := ∀ s c, c ∈ lower s → c ∈ punctuation → c ∈ s

theorem getData_lax (p : Path) : ∀ d : Val, ∃ v, getData false p d = .ok v := by
  induction p with
  | nil => exact fun d => ⟨d, rfl⟩
  | cons k p ih =>
    intro d
    rw [getData]
    split
    · exact ⟨_, rfl⟩
    · exact ih _

theorem getValue_lax (p : Path) (d : Val) : ∃ v, getValue false p d = .ok v := by
  obtain ⟨v, hv⟩ := getData_lax p d
  unfold getValue getAttr
  rw [hv]
  cases v with
  | dict kv =>
    dsimp only
    split
    · exact ⟨_, rfl⟩
    · exact ⟨_, rfl⟩
    · exact ⟨_, rfl⟩
  | _ => exact ⟨_, rfl⟩

/-- The value of a documented reading that is a text. -/
theorem text_value (E : Env) (clientId : Int) (maxRetries : Int) (es : List Ev) (q : Path) (s : Sheet) (hs : sheet q = some s) (hk : s.kind = .text)
    (hb : s.blank = false) (v : Val) (h : getValue false q (after E clientId maxRetries es).g.data = .ok v) : v = .null ∨ ∃ t, v = .str t := by
  by_cases hv : v = .null
  · exact .inl hv
  · right
    have hr := C83_reachable E clientId maxRetries es
    generalize (after E clientId maxRetries es).g.data = d at *
    have ht := reachable_tree hr
    obtain ⟨x, hx⟩ := getData_lax q d
    unfold getValue getAttr at h
    rw [hx] at h
    have hn := (sheet_place hs).1
    have hq0 : q ≠ [] := by rintro rfl; rw [show sheet [] = none from rfl] at hs; cases hs
    cases x with
    | dict kv =>
      have hl : d.look q = some (.dict kv) := by
        refine getData_dicts (fun r i w hp hl => (reachable_sound hr).shaped r w ?_ hl) (by simp) hx
        rw [Bool.or_eq_true]
        left
        refine isNode_prefix hn ?_
        obtain ⟨t, ht⟩ := hp
        rw [← ht]
        cases t with
        | nil => simp
        | cons a t => rw [List.dropLast_append_of_ne_nil (by simp)]; exact ⟨_, (List.append_assoc _ _ _).symm⟩
      rcases reachable_sheets hr q s hs _ hl with ⟨h1, -⟩ | ⟨kv', h1, h2, h3⟩
      · rw [hb] at h1; cases h1
      · cases h1
        obtain ⟨v', h4, h5⟩ := h3.value
        rw [hk] at h5
        obtain ⟨t, rfl⟩ := h5
        cases ha : aget (.s "value") kv with
        | none => rw [ha] at h2; cases h2
        | some y =>
          rw [ha] at h4
          cases h4
          dsimp only at h
          rw [ha] at h
          cases h
          exact ⟨t, rfl⟩
    | _ => cases h; exact absurd rfl hv

section
variable (E : Env) (clientId maxRetries : Int) (lower : List Char → List Char) (now : Rat)

/-- **C97** (the file).  After every history, if firmware, model and equipment flags are known, the export writes a file whose content is
the JSON form of the collection of the gateway's data and of its raw answers. -/
theorem C97_writes (es : List Ev) (h : NamesKnown (after E clientId maxRetries es).g.data) :
    ∃ name raw c, exportFile E.pyFloat lower now (after E clientId maxRetries es).g.data (after E clientId maxRetries es).g.last =
        .ok (name, c.export) ∧
      (after E clientId maxRetries es).g.last = .dict raw ∧
      buildCollection E.pyFloat now raw (after E clientId maxRetries es).g.data = .ok c ∧ c.decoded = (after E clientId maxRetries es).g.data := by
  obtain ⟨raw, c, h1, h2, h3⟩ := C93_builds E clientId maxRetries es now
  obtain ⟨⟨a, a1, a2⟩, ⟨b, b1, b2⟩, n, hn⟩ := h
  rcases text_value E clientId maxRetries es _ _ rfl rfl rfl a a2 with rfl | ⟨ta, rfl⟩
  · exact absurd rfl a1
  rcases text_value E clientId maxRetries es _ _ rfl rfl rfl b b2 with rfl | ⟨tb, rfl⟩
  · exact absurd rfl b1
  have hx : ∃ name, exportFile E.pyFloat lower now (after E clientId maxRetries es).g.data (after E clientId maxRetries es).g.last =
      .ok (name, c.export) := by
    unfold exportFile
    simp only [a2, b2, hn, h1, h2, fileFormat, flagsValue, bind, Except.bind, pure, Except.pure]
    exact ⟨_, rfl⟩
  obtain ⟨name, hx⟩ := hx
  exact ⟨name, raw, c, hx, h1, h2, h3⟩

/-- **C97** (no file).  Otherwise it raises AttributeError or ValueError and writes nothing. -/
theorem C97_refuses (es : List Ev) (h : ¬ NamesKnown (after E clientId maxRetries es).g.data) :
    exportFile E.pyFloat lower now (after E clientId maxRetries es).g.data (after E clientId maxRetries es).g.last = .error .attributeError ∨
    exportFile E.pyFloat lower now (after E clientId maxRetries es).g.data (after E clientId maxRetries es).g.last = .error .valueError := by
  obtain ⟨a, a2⟩ := getValue_lax [.s "adapter", .s "firmware"] (after E clientId maxRetries es).g.data
  obtain ⟨b, b2⟩ := getValue_lax [.s "controller", .s "model"] (after E clientId maxRetries es).g.data
  obtain ⟨n, n2⟩ := getData_lax [.s "controller", .s "equipment", .s "flags"] (after E clientId maxRetries es).g.data
  unfold exportFile
  rcases text_value E clientId maxRetries es _ _ rfl rfl rfl a a2 with rfl | ⟨ta, rfl⟩
  · left; simp only [a2, fileFormat, bind, Except.bind]
  rcases text_value E clientId maxRetries es _ _ rfl rfl rfl b b2 with rfl | ⟨tb, rfl⟩
  · left; simp only [a2, b2, fileFormat, bind, Except.bind]
  right
  cases n with
  | int n => exact absurd ⟨⟨_, by simp, a2⟩, ⟨_, by simp, b2⟩, n, n2⟩ h
  | _ => simp only [a2, b2, n2, fileFormat, flagsValue, bind, Except.bind]

end

/-- **C97** (the name).  Whatever texts the adapter reports, the file has no directory in its name: no slash, no backslash, and no other
punctuation but the fixed parts' and dashes. -/
theorem C97_name {f : String → Except PyErr Rat} {lower : List Char → List Char} (hl : PlainLower lower) {now : Rat} {d last : Val}
    {name : String} {j : Json} (h : exportFile f lower now d last = .ok (name, j)) :
    ∃ ver fw model : List Char, ∃ n : Int, name.toList = "slpy-".toList ++ ver ++ ['_'] ++ fw ++ ['_'] ++ model ++ ['_'] ++ (toString n).toList ++ ".json".toList ∧
      getData false [.s "controller", .s "equipment", .s "flags"] d = .ok (.int n) ∧
      (∀ c ∈ ver ++ fw ++ model, c ∈ punctuation → c = '-') ∧ '/' ∉ name.toList ∧ '\\' ∉ name.toList := by
  have hf : ∀ v t, fileFormat lower v = .ok t → ∀ c ∈ t, c ∈ punctuation → c = '-' := by
    intro v t hv c hc hp
    cases v with
    | str s =>
      cases hv
      have := hl _ _ hc hp
      obtain ⟨b, hb, rfl⟩ := List.mem_map.1 this
      have hb2 := (List.mem_filter.1 hb).2
      by_cases hbs : b = ' '
      · rw [if_pos hbs]
      · rw [if_neg hbs] at hp
        simp [hp] at hb2
    | _ => cases hv
  unfold exportFile at h
  simp only [bind, Except.bind] at h
  cases h0 : fileFormat lower (.str libVersion) with
  | error e => rw [h0] at h; cases h
  | ok ver =>
  cases h1 : getValue false [.s "adapter", .s "firmware"] d with
  | error e => rw [h0, h1] at h; cases h
  | ok v1 =>
  cases h2 : fileFormat lower v1 with
  | error e => simp only [h0, h1, h2] at h; cases h
  | ok fw =>
  cases h3 : getValue false [.s "controller", .s "model"] d with
  | error e => simp only [h0, h1, h2, h3] at h; cases h
  | ok v3 =>
  cases h4 : fileFormat lower v3 with
  | error e => simp only [h0, h1, h2, h3, h4] at h; cases h
  | ok model =>
  cases h5 : getData false [.s "controller", .s "equipment", .s "flags"] d with
  | error e => simp only [h0, h1, h2, h3, h4, h5] at h; cases h
  | ok v5 =>
  cases v5 with
  | int n =>
    simp only [h0, h1, h2, h3, h4, h5, flagsValue] at h
    cases last with
    | dict raw =>
      dsimp only at h
      cases hb : buildCollection f now raw d with
      | error e => rw [hb] at h; cases h
      | ok c =>
        rw [hb] at h
        cases h
        have hall : ∀ c ∈ ver ++ fw ++ model, c ∈ punctuation → c = '-' := by
          intro c hc
          rcases List.mem_append.1 hc with hc | hc
          · rcases List.mem_append.1 hc with hc | hc
            · exact hf _ _ h0 c hc
            · exact hf _ _ h2 c hc
          · exact hf _ _ h4 c hc
        have hnum : ∀ c ∈ (toString n).toList, c ≠ '/' ∧ c ≠ '\\' := by
          intro c hc
          have hd : ∀ m : Nat, ∀ c ∈ Nat.toDigits 10 m, c ≠ '/' ∧ c ≠ '\\' := by
            intro m c hc
            have := (digits_ascii hc).1
            constructor
            · rintro rfl; exact absurd this.1 (by decide)
            · rintro rfl; exact absurd this.2 (by decide)
          cases n with
          | ofNat m =>
            rw [show toString (Int.ofNat m) = Nat.repr m from rfl] at hc
            rw [Nat.repr, String.toList_ofList] at hc
            exact hd m c hc
          | negSucc m =>
            rw [show toString (Int.negSucc m) = "-" ++ Nat.repr (m + 1) from rfl] at hc
            rw [String.toList_append, Nat.repr, String.toList_ofList] at hc
            rcases List.mem_append.1 hc with hc | hc
            · rw [List.mem_singleton.1 hc]; decide
            · rw [String.toList_ofList] at hc
              exact hd _ c hc
        have hno : ∀ x : Char, x ∈ punctuation → x ≠ '-' → x ≠ '_' → x ∉ "slpy-".toList → x ∉ ".json".toList → x ∉ (toString n).toList →
            x ∉ "slpy-".toList ++ ver ++ ['_'] ++ fw ++ ['_'] ++ model ++ ['_'] ++ (toString n).toList ++ ".json".toList := by
          intro x hx h1 h2 h3 h4 h5 hm
          simp only [List.mem_append, List.mem_singleton] at hm
          rcases hm with (((((((hm | hm) | hm) | hm) | hm) | hm) | hm) | hm) | hm
          · exact h3 hm
          · exact h1 (hall x (by simp [hm]) hx)
          · exact h2 hm
          · exact h1 (hall x (by simp [hm]) hx)
          · exact h2 hm
          · exact h1 (hall x (by simp [hm]) hx)
          · exact h2 hm
          · exact h5 hm
          · exact h4 hm
        refine ⟨ver, fw, model, n, String.toList_ofList, rfl, hall, ?_, ?_⟩
        · rw [String.toList_ofList]
          exact hno '/' (by decide) (by decide) (by decide) (by decide) (by decide) (fun h => (hnum _ h).1 rfl)
        · rw [String.toList_ofList]
          exact hno '\\' (by decide) (by decide) (by decide) (by decide) (by decide) (fun h => (hnum _ h).2 rfl)
    | _ => cases h
  | _ => simp only [h0, h1, h2, h3, h4, h5, flagsValue] at h; cases h

section
variable (E : Env) (C : CliEnv) (clientId maxRetries : Int) (lower : List Char → List Char) (now : Rat)

/-- **C97** (reading it back).  Importing what was exported gives the data and the raw answers back (with the caveat of C64: no
negative number as a key). -/
theorem C97_returns (es : List Ev) (U : UnicodeDb) (hU : U.Ascii) (name : String) (j : Json)
    (h : exportFile E.pyFloat lower now (after E clientId maxRetries es).g.data (after E clientId maxRetries es).g.last = .ok (name, j))
    (hn : NumberKeys (after E clientId maxRetries es).g.data) :
    ∃ raw c, (after E clientId maxRetries es).g.last = .dict raw ∧ buildCollection E.pyFloat now raw (after E clientId maxRetries es).g.data = .ok c ∧
      j = c.export ∧ ((∀ p ∈ c.parts, ∀ d ∈ p.2.decodeds, NumberKeys d) → importCollection U j = .ok c.fields) := by
  obtain ⟨raw, c, h1, h2, h3⟩ := C93_builds E clientId maxRetries es now
  have hj : j = c.export := by
    by_cases hk : NamesKnown (after E clientId maxRetries es).g.data
    · obtain ⟨name', raw', c', g1, g2, g3, -⟩ := C97_writes E clientId maxRetries lower now es hk
      rw [h1] at g2
      cases g2
      rw [h2] at g3
      cases g3
      rw [g1] at h
      cases h
      rfl
    · rcases C97_refuses E clientId maxRetries lower now es hk with e | e <;> rw [e] at h <;> cases h
  refine ⟨raw, c, h1, h2, hj, fun hp => ?_⟩
  rw [hj]
  exact C93_returns E clientId maxRetries es now U hU raw c h1 h2 hn hp

/-- **C97** (only the export writes). -/
theorem C97_only {G : Gate} {dataAt : List (Call × Except PyErr Res) → Val × Val} {a : CliArgs} {found : List Host} {f : String × Json}
    (h : (cliExport E C lower now G dataAt a found).2 = some f) :
    a.action = .export ∧ (cliExport E C lower now G dataAt a found).1.result = .ok 0 := by
  unfold cliExport at h ⊢
  dsimp only at h ⊢
  split at h
  · rename_i h1
    split at h
    · rename_i h2
      rw [if_pos h2]
      split at h
      · rename_i f' hf
        exact ⟨h1, h2⟩
      · cases h
    · cases h
  · cases h

/-- **C97** (end to end).  `screenlogicpy export` on a gateway it can use makes two calls, connecting and updating.  If then firmware, model and flags
are known it ends with status 0 and has written one file, whose content is the collection of what the gateway then has; if not, it ends with an AttributeError or a
ValueError and no file. -/
theorem C97_end {W : Nat → List Ev} {a : CliArgs} {found : List Host} {host : ConnectArgs} {d : Val} (hu : Uses a found host) (ha : a.action = .export)
    (hr : LetsIn (liveGate E clientId maxRetries W) host d) :
    let run := cliExport E C lower now (liveGate E clientId maxRetries W) (liveData E clientId maxRetries W) a found
    let g := (after E clientId maxRetries (run.1.history W)).g
    run.1.calls.map (·.1) = [.connect host, .update] ∧ g.data = d ∧
    (NamesKnown d → run.1.result = .ok 0 ∧ ∃ name raw c, run.2 = some (name, c.export) ∧ g.last = .dict raw ∧
      buildCollection E.pyFloat now raw d = .ok c ∧ c.decoded = d) ∧
    (¬ NamesKnown d → run.2 = none ∧ (run.1.result = .error .attributeError ∨ run.1.result = .error .valueError)) := by
  obtain ⟨h0, r1, r2, hc⟩ := C77_refuted_export (E := E) (C := C) hu ha hr
  have hcalls : ∀ x : Run Int × Option (String × Json), x = cliExport E C lower now (liveGate E clientId maxRetries W) (liveData E clientId maxRetries W) a found →
      x.1.calls = [(.connect host, .ok r1), (.update, .ok r2)] := by
    rintro x rfl
    unfold cliExport
    dsimp only
    rw [ha]
    dsimp only
    rw [if_pos h0]
    split
    · exact hc
    · exact hc
  have hd : (after E clientId maxRetries (history W 0 [.connect host, .update])).g.data = d := by
    obtain ⟨r1', d1, r2', x, g1, g2, -⟩ := hr
    have := congrArg Prod.snd g2
    simp only [liveGate] at this
    rw [← this]
    simp [history]
  have hrun : ∀ o, exportFile E.pyFloat lower now d (after E clientId maxRetries (history W 0 [.connect host, .update])).g.last = o →
      cliExport E C lower now (liveGate E clientId maxRetries W) (liveData E clientId maxRetries W) a found =
        match o with
        | .ok f => (cli E C (liveGate E clientId maxRetries W) a found, some f)
        | .error e => ({ cli E C (liveGate E clientId maxRetries W) a found with result := .error e }, none) := by
    intro o ho
    unfold cliExport
    dsimp only
    rw [ha]
    dsimp only
    rw [if_pos h0]
    have e1 : liveData E clientId maxRetries W (cli E C (liveGate E clientId maxRetries W) a found).calls =
        (d, (after E clientId maxRetries (history W 0 [.connect host, .update])).g.last) := by
      rw [hc]
      simp only [liveData, List.map_cons, List.map_nil, hd]
    rw [e1, ho]
    cases o <;> rfl
  intro run g
  have hrc := hcalls run rfl
  have hg : g = (after E clientId maxRetries (history W 0 [.connect host, .update])).g := by
    show (after E clientId maxRetries (run.1.history W)).g = _
    rw [Run.history, hrc]
    rfl
  refine ⟨by rw [hrc]; rfl, by rw [hg, hd], ?_, ?_⟩
  · intro hk
    rw [← hd] at hk
    obtain ⟨name, raw, c, g1, g2, g3, g4⟩ := C97_writes E clientId maxRetries lower now _ hk
    rw [hd] at g1 g3 g4
    have hx : run = _ := hrun _ g1
    rw [hx]
    exact ⟨h0, name, raw, c, rfl, by rw [hg, g2], g3, g4⟩
  · intro hk
    rw [← hd] at hk
    rcases C97_refuses E clientId maxRetries lower now _ hk with g1 | g1
    · rw [hd] at g1
      have hx : run = _ := hrun _ g1
      rw [hx]
      exact ⟨rfl, .inl rfl⟩
    · rw [hd] at g1
      have hx : run = _ := hrun _ g1
      rw [hx]
      exact ⟨rfl, .inr rfl⟩

/-- **C97** (always).  If nobody else uses the gateway, `screenlogicpy export` ends with status 0 and has written the file whenever connecting and updating
succeed. -/
theorem C97_always {W : Nat → List Ev} {a : CliArgs} {found : List Host} {host : ConnectArgs} {d : Val} (hu : Uses a found host) (ha : a.action = .export)
    (hr : LetsIn (liveGate E clientId maxRetries W) host d) (hW : NoOtherCalls W) :
    let run := cliExport E C lower now (liveGate E clientId maxRetries W) (liveData E clientId maxRetries W) a found
    let g := (after E clientId maxRetries (run.1.history W)).g
    run.1.result = .ok 0 ∧ ∃ name raw c, run.2 = some (name, c.export) ∧ g.data = d ∧ g.last = .dict raw ∧
      buildCollection E.pyFloat now raw d = .ok c ∧ c.decoded = d := by
  intro run g
  obtain ⟨h1, h2, h3, -⟩ := C97_end E C clientId maxRetries lower now hu ha hr
  have hk : NamesKnown d := by
    obtain ⟨r1, d1, r2, x, g1, g2, -⟩ := hr
    have e := congrArg Prod.snd g2
    have e1 := congrArg Prod.fst g2
    simp only [liveGate, List.map_cons, List.map_nil] at e e1
    rw [← e]
    have hres : resultOf E clientId maxRetries (history W 0 [.connect host]) .update (W [(Call.connect host, (Except.ok r1 : Except PyErr Res))].length) = some (.ok r2) := by
      cases hx : resultOf E clientId maxRetries (history W 0 [.connect host]) .update (W [(Call.connect host, (Except.ok r1 : Except PyErr Res))].length) with
      | none => rw [hx] at e1; cases e1
      | some r => rw [hx] at e1; simp only [Option.getD_some] at e1; rw [e1]
    have hno : ∀ a, Ev.call a ∈ history W 0 [.connect host] ++ .call .update :: W [(Call.connect host, (Except.ok r1 : Except PyErr Res))].length →
        a = .update ∨ a = .connect host := by
      intro a ha
      simp only [history, List.append_nil, List.mem_append, List.mem_cons] at ha
      rcases ha with (ha | ha) | ha | ha
      · cases ha; exact .inr rfl
      · exact absurd ha (hW _ _)
      · cases ha; exact .inl rfl
      · exact absurd ha (hW _ _)
    obtain ⟨⟨n, hn⟩, hm⟩ := C98_flags E clientId maxRetries .update (.inl rfl) _ _ [] hres
    rw [List.append_nil] at hn hm
    refine ⟨C98_version E clientId maxRetries _ ⟨fun h => ?_, fun data h => ?_⟩ hn, hm, n, hn⟩
    · rcases hno _ h with h | h <;> cases h
    · rcases hno _ h with h | h <;> cases h
  obtain ⟨h4, name, raw, c, h5, h6, h7, h8⟩ := h3 hk
  exact ⟨h4, name, raw, c, h5, h2, h6, h7, h8⟩

end

/-- Lowering ASCII letters only. -/
def asciiLower (l : List Char) : List Char := l.map Char.toLower

theorem lower_plain (b : Char) (h : b.toLower ∈ punctuation) : b.toLower = b := by
  unfold Char.toLower at *
  split
  · rename_i hb
    rw [dif_pos hb] at h
    exfalso
    have : ∀ c ∈ punctuation, ¬ (97 ≤ c.val ∧ c.val ≤ 122) := by decide
    refine this _ h ?_
    have h1 : b.val ≥ 65 ∧ b.val ≤ 90 := hb
    have h2 := UInt32.le_iff_toNat_le.1 h1.1
    have h3 := UInt32.le_iff_toNat_le.1 h1.2
    constructor
    · rw [UInt32.le_iff_toNat_le]
      simp only [UInt32.toNat_add] at *
      simp at *
      omega
    · rw [UInt32.le_iff_toNat_le]
      simp only [UInt32.toNat_add] at *
      simp at *
      omega
  · rfl

theorem asciiLower_plain : PlainLower asciiLower := by
  intro s c hc hp
  obtain ⟨b, hb, rfl⟩ := List.mem_map.1 hc
  rw [lower_plain b hp]
  exact hb

/-- Lets in, and what is known then. -/
theorem letsIn_known {E : Env} {clientId maxRetries : Int} {W : Nat → List Ev} {host : ConnectArgs} {r1 r2 : Res}
    (h1 : (liveGate E clientId maxRetries W [] (.connect host)).1 = .ok r1)
    (h2 : (liveGate E clientId maxRetries W [(.connect host, .ok r1)] .update).1 = .ok r2)
    (h3 : ((liveGate E clientId maxRetries W [(.connect host, .ok r1)] .update).2.look [.s "controller"]).isSome = true) :
    LetsIn (liveGate E clientId maxRetries W) host (liveGate E clientId maxRetries W [(.connect host, .ok r1)] .update).2 := by
  obtain ⟨x, hx⟩ := Option.isSome_iff_exists.1 h3
  exact letsIn_of h1 h2 hx

/-- The gateway the examples connect to. -/
def exportHost : ConnectArgs := { ip := some "10.0.0.2", port := some 80 }

/-- The data after connecting and updating on the gateway of `pressEvs`. -/
def pressData : Val := (liveGate sampleEnv 1 1 pressEvs [(.connect exportHost, .ok (.bool true))] .update).2

theorem press_known : NamesKnown pressData := by
  have h1 : getValue false [.s "adapter", .s "firmware"] pressData = .ok (.str "POOL: 5.2 Build 736.0 Rel") := by decide +kernel
  have h2 : getValue false [.s "controller", .s "model"] pressData = .ok (.str "EasyTouch2 8") := by decide +kernel
  have h3 : getData false [.s "controller", .s "equipment", .s "flags"] pressData = .ok (.int 32796) := by decide +kernel
  exact ⟨⟨_, by simp, h1⟩, ⟨_, by simp, h2⟩, _, h3⟩

/-- A history that meets the hypotheses of `C97_end`, with everything known: it writes a file. -/
theorem C97_witness : PlainLower asciiLower ∧ Uses (smallArgs .export) [] exportHost ∧
    LetsIn (liveGate sampleEnv 1 1 pressEvs) exportHost pressData ∧ NoOtherCalls pressEvs ∧ NamesKnown pressData ∧
    (∃ f, (cliExport sampleEnv smallClock asciiLower 0 (liveGate sampleEnv 1 1 pressEvs) (liveData sampleEnv 1 1 pressEvs) (smallArgs .export) []).2 = some f) ∧
    fileFormat asciiLower (.str "POOL: 5.2 Build 736.0 Rel") = .ok "pool-52-build-7360-rel".toList := by
  have hl : LetsIn (liveGate sampleEnv 1 1 pressEvs) exportHost pressData :=
    letsIn_known (E := sampleEnv) (clientId := 1) (maxRetries := 1) (W := pressEvs) (host := exportHost) (r1 := .bool true) (r2 := .none)
      (by decide +kernel) (by decide +kernel) (by decide +kernel)
  have hu : Uses (smallArgs .export) [] exportHost := small_uses _
  obtain ⟨-, -, h, -⟩ := C97_end sampleEnv smallClock 1 1 asciiLower 0 hu rfl hl
  obtain ⟨-, name, raw, c, h, -⟩ := h press_known
  exact ⟨asciiLower_plain, hu, hl, press_alone, press_known, ⟨_, h⟩, by decide +kernel⟩

/-- A gateway that has not been asked for its configuration: no file (the hypothesis of `C97_refuses`). -/
theorem C97_nameless : ¬ NamesKnown (after sampleEnv 1 1 bareConnectEvs).g.data := by
  have h1 : getValue false [.s "controller", .s "model"] (after sampleEnv 1 1 bareConnectEvs).g.data = .ok .null := by decide +kernel
  rintro ⟨-, ⟨v, hv, h⟩, -⟩
  rw [h1] at h
  cases h
  exact hv rfl

end SL
