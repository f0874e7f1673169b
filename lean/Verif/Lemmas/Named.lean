import Verif.Lemmas.Knows
import Verif.Lemmas.Flags
import Verif.Spec.Live
/-!
# Equipment flags, model and version

The gateway asks for its configuration only when it knows the version, and an update ends normally only if the flags are known.
-/
set_option linter.unusedVariables false
namespace SL
open Spec

/-- The equipment flags are known. -/
def FlagsKnown (d : Val) : Prop := (d.look flagsAt).isSome
/-- The adapter's version is known. -/
def VersionKnown (d : Val) : Prop := (d.look ([.s "adapter", .s "firmware"] ++ [.s "value"])).isSome

theorem flagsKnown_stays (f : String → Except PyErr Rat) (D : Decoder) (m : Bytes) (d : Val) (h : FlagsKnown d) :
    FlagsKnown (decodeWith (D.prog f) m d).2 := present_stays f D m d _ rfl h
theorem versionKnown_stays (f : String → Except PyErr Rat) (D : Decoder) (m : Bytes) (d : Val) (h : VersionKnown d) :
    VersionKnown (decodeWith (D.prog f) m d).2 := reading_stays f D m d _ rfl rfl h

theorem flagsKnown_of {d : Val} {n : Nat} (h : equipmentFlags d = .ok n) : FlagsKnown d := by
  unfold equipmentFlags at h
  split at h
  · rename_i n hn
    have : d.look flagsAt = some (.int n) := by
      refine getData_dicts ?_ (by simp) hn
      intro r i v hp
      exfalso
      have hm : Key.i i ∈ ([.s "controller", .s "equipment", .s "flags"] : Path) := hp.subset (by simp)
      simp at hm
    rw [FlagsKnown, this]; rfl
  · cases h
  · cases h

theorem versionKnown_of {g : Gw} (h : g.hasVersion = true) : VersionKnown g.data := by
  unfold Gw.hasVersion at h
  cases hv : getValue false [.s "adapter", .s "firmware"] g.data with
  | error e => rw [hv] at h; cases h
  | ok v =>
    rw [hv] at h
    unfold getValue getAttr at hv
    obtain ⟨x, hx⟩ : ∃ x, getData false [.s "adapter", .s "firmware"] g.data = .ok x := by
      cases hx : getData false [.s "adapter", .s "firmware"] g.data with
      | ok x => exact ⟨x, rfl⟩
      | error e => rw [hx] at hv; cases hv
    rw [hx] at hv
    cases x with
    | dict kv =>
      have hl : g.data.look [.s "adapter", .s "firmware"] = some (.dict kv) := by
        refine getData_dicts ?_ (by simp) hx
        intro r i v hp
        exfalso
        have hm : Key.i i ∈ ([.s "adapter", .s "firmware"] : Path) := hp.subset (by simp)
        simp at hm
      rw [VersionKnown, look_append, hl, Option.bind_some]
      cases ha : aget (.s "value") kv with
      | some y => simp [Val.look, ha]
      | none =>
        dsimp only at hv
        rw [ha] at hv
        cases hv
        cases h
    | _ =>
      dsimp only at hv
      cases hv
      cases h

section
variable {α : Type} {K : Val → Prop} {ask : Int → Prop}

/-- Once it is known, anything may be asked. -/
theorem Co.knows_any {fin : Except PyErr α → Prop} : ∀ (x : Co α) {b : Prop}, b → x.Knows K ask fin b
  | .ret a, _, h => fun _ => h
  | .throw e, _, h => fun _ => h
  | .get k, _, h => fun g => Co.knows_any (k g) (.inl h)
  | .upd _ k, _, h => Co.knows_any k h
  | .request _ _ _ _ k, _, h => ⟨fun _ => h, fun o => Co.knows_any (k o) h⟩
  | .openConn _ k, _, h => fun o => Co.knows_any (k o) h
  | .sleep k, _, h => fun o => Co.knows_any (k o) h
  | .close _ _ k, _, h => fun o => Co.knows_any (k o) h
  | .acquire k, _, h => fun o => Co.knows_any (k o) h

end

section
variable (E : Env) {K : Val → Prop} {ask : Int → Prop}
open Co

/-- The configuration is asked for when the version is known. -/
theorem afterOpen_asks (r : Int) (c : Nat) : (afterOpen E r c).Asks VersionKnown (· = 12532) := by
  refine asks_bind ?_ (fun mac => ?_)
  · refine asks_bind ?_ (fun mac => asks_bind (asks_ofExcept _) (fun msg => asks_bind (asks_make _ (by simp) _ _) (fun r => ?_)))
    · refine asks_bind (asks_modify _) (fun _ => asks_bind asks_pause (fun _ => asks_state (fun g => ?_)))
      refine asks_ite (asks_bind (asks_make _ (by simp) _ _) (fun r => ?_)) (asks_throw _)
      split
      · exact asks_ofExcept _
      · exact asks_throw _
    · split <;> exact fun b => False.elim
  · split
    · exact fun b => False.elim
    · refine asks_bind (asks_modify _) (fun _ => asks_bind ?_ (fun _ => ?_))
      · exact asks_state (fun g => asks_bind (asks_query E _ (by simp) _ _ _) (fun raw => asks_modify _))
      · intro b g
        by_cases h : g.hasVersion = true
        · exact knows_any _ (.inr (versionKnown_of h))
        · show Co.Knows _ _ _ _ (if g.hasVersion = true then _ else _)
          rw [if_neg h]
          exact False.elim

variable (h24 : ¬ ask 12524) (h22 : ¬ ask 12522)

include h24 in
theorem asks_getPump (hp : ¬ ask 12584) (i : Nat) : (getPump E i).Asks K ask :=
  asks_state (fun g => asks_bind (asks_ofExcept _) (fun fl => asks_ite
    (asks_bind (asks_modify _) (fun _ => asks_poll h24 _ (fun c r => asks_query E _ hp _ _ _))) (asks_ret _)))

include h24 in
theorem asks_getPumpsFrom (hp : ¬ ask 12584) : ∀ (n i : Nat), (getPumpsFrom E n i).Asks K ask
  | 0, i => asks_ret _
  | n + 1, i => asks_bind (asks_getPump E h24 hp i) (fun _ => asks_getPumpsFrom hp n (i + 1))

include h24 in
theorem asks_update (hs : ¬ ask 12526) (hp : ¬ ask 12584) (hc : ¬ ask 12592) (hg : ¬ ask 12572) (hd : ¬ ask 8110) : (asyncUpdate E).Asks K ask := by
  refine asks_state (fun g => asks_ite ?_ (asks_throw _))
  exact asks_bind (asks_poll h24 _ (fun c r => asks_query E _ hs _ _ _)) (fun _ => asks_bind (asks_getPumpsFrom E h24 hp _ _) (fun _ =>
    asks_bind (asks_poll h24 _ (fun c r => asks_query E _ hc _ _ _)) (fun _ => asks_bind (asks_poll h24 _ (fun c r => asks_query E _ hg _ _ _)) (fun _ =>
      asks_poll h24 _ (fun c r => asks_query E _ hd _ _ _)))))

/-- Looking at the pumps means knowing the flags. -/
theorem learns_getPump (i : Nat) : (getPump E i).Learns FlagsKnown (fun _ => False) := by
  intro b g
  cases h : equipmentFlags g.data with
  | ok n => exact knows_any _ (.inr (flagsKnown_of h))
  | error e =>
    show Co.Knows _ _ _ _ (ofExcept (equipmentFlags g.data) >>= _)
    rw [h]
    exact fun ⟨a, ha⟩ => by cases ha

theorem learns_update : (asyncUpdate E).Learns FlagsKnown (fun _ => False) := by
  have hrest : (getPumps E).Learns FlagsKnown (fun _ => False) := learns_first (learns_getPump E 0) (fun _ => asks_getPumpsFrom E id id _ _)
  intro b g
  show Co.Knows _ _ _ _ (if g.data.truthy = true then _ else _)
  by_cases h : g.data.truthy = true
  · rw [if_pos h]
    exact learns_then (asks_poll id _ (fun c r => asks_query E _ id _ _ _)) (fun _ => learns_first hrest (fun _ =>
      asks_bind (asks_poll id _ (fun c r => asks_query E _ id _ _ _)) (fun _ => asks_bind (asks_poll id _ (fun c r => asks_query E _ id _ _ _)) (fun _ =>
      asks_poll id _ (fun c r => asks_query E _ id _ _ _))))) _
  · rw [if_neg h]
    exact fun ⟨a, ha⟩ => by cases ha

theorem asks_ping (hp : ¬ ask 16) : pingCo.Asks K ask := by
  refine asks_bind (asks_state (fun g => ?_)) (fun _ => asks_ret _)
  split
  · exact asks_try (asks_ack hp _ _ _) (fun e => asks_ite (asks_ret _) (asks_throw _))
  · exact asks_throw _

end

section
variable (E : Env) (clientId maxRetries : Int)

/-- Flags that are known have been asked for. -/
theorem flags_asked (es : List Ev) (h : FlagsKnown (after E clientId maxRetries es).g.data) :
    ∃ t c p, (t, Act.ask c 12532 p) ∈ (after E clientId maxRetries es).g.log := by
  revert h
  refine snoc_ind (P := fun l => FlagsKnown (after E clientId maxRetries l).g.data → ∃ t c p, (t, Act.ask c 12532 p) ∈ (after E clientId maxRetries l).g.log)
    ?_ ?_ es
  · intro h
    cases h
  · intro l ev ih
    rw [after_snoc]
    refine (step_microA ((SysOk.init E False clientId maxRetries).run _ (fun u => u.elim)) (reach_waiting E clientId maxRetries l) ev
      (fun u => u.elim)).inv (I := fun g => FlagsKnown g.data → ∃ t c p, (t, Act.ask c 12532 p) ∈ g.log) ?_ ih
    intro g g' hg m hk
    have hl : ∀ x, x ∈ g.log → x ∈ g'.log := by
      cases m with
      | base _ _ _ hl =>
        rcases hl with hl | ⟨t, a, -, hl⟩
        · rw [hl]; exact fun _ => id
        · rw [hl]; exact fun x hx => List.mem_append_left _ hx
      | got t o _ c r ho ha => exact fun x hx => List.mem_append_left _ hx
    have old : FlagsKnown g.data → ∃ t c p, (t, Act.ask c 12532 p) ∈ g'.log := fun h => by
      obtain ⟨t, c, p, hm⟩ := hg h
      exact ⟨t, c, p, hl _ hm⟩
    rcases data_cases m.micro with e | ⟨t, D, code, payload, b, hq, ⟨h0, c, p, ha, hp⟩, e⟩ | ⟨c, x, k, msg, D, -, -, -, hd, e⟩
    · rw [e] at hk; exact old hk
    · by_cases hD : D = .config
      · subst hD
        cases hq
        have hm : Act.ask c 12532 p ∈ g.acts t := by rw [ha]; simp
        rw [Gw.acts, List.mem_map] at hm
        obtain ⟨⟨t', a⟩, hm, rfl⟩ := hm
        exact ⟨t', c, p, hl _ (List.mem_filter.1 hm).1⟩
      · rw [e, FlagsKnown, flagsAt_only_config _ hD] at hk
        exact old hk
    · have hD : D ≠ .config := by
        rintro rfl
        unfold pushDecoder at hd
        repeat' (split at hd)
        all_goals cases hd
      rw [e, FlagsKnown, flagsAt_only_config _ hD] at hk
      exact old hk

/-- Flags in the data are whole numbers, with a model. -/
theorem flagsOk_after (es : List Ev) : FlagsOk (after E clientId maxRetries es).g.data := by
  have := later_data E clientId maxRetries (R := fun a b => FlagsOk a → FlagsOk b) (fun _ => id) (fun _ _ _ h1 h2 h => h2 (h1 h))
    (fun D b d => flagsOk_decode E.pyFloat D b) [] es
  exact this (fun v hv => by cases hv)

theorem Co.knows_nothing {α : Type} {K : Val → Prop} {fin : Except PyErr α → Prop} (hf : ∀ o, ¬ fin o) : ∀ (x : Co α) {b : Prop}, x.Knows K (fun _ => False) fin b
  | .ret a, _ => fun h => absurd h (hf _)
  | .throw e, _ => fun h => absurd h (hf _)
  | .get k, _ => fun g => Co.knows_nothing hf (k g)
  | .upd _ k, _ => Co.knows_nothing hf k
  | .request _ _ _ _ k, _ => ⟨False.elim, fun o => Co.knows_nothing hf (k o)⟩
  | .openConn _ k, _ => fun o => Co.knows_nothing hf (k o)
  | .sleep k, _ => fun o => Co.knows_nothing hf (k o)
  | .close _ _ k, _ => fun o => Co.knows_nothing hf (k o)
  | .acquire k, _ => fun o => Co.knows_nothing hf (k o)

theorem Task.knows_nothing {K : Val → Prop} {fin : Except PyErr Res → Prop} (hf : ∀ o, ¬ fin o) : ∀ (x : Task) {b : Prop}, x.Knows K (fun _ => False) fin b
  | .request _ _ k, _ => fun o => Co.knows_nothing hf (k o)
  | .opening _ k, _ => fun o => Co.knows_nothing hf (k o)
  | .sleeping k, _ => fun o => Co.knows_nothing hf (k o)
  | .closing _ _ k, _ => fun o => Co.knows_nothing hf (k o)
  | .locked k, _ => fun o => Co.knows_nothing hf (k o)
  | .done r, _ => fun h => absurd h (hf _)

/-- What a call learns still holds when it has ended, and later. -/
theorem call_learns {K : Val → Prop} (hK : ∀ D b d, K d → K (decodeWith (Decoder.prog E.pyFloat D) b d).2) (a : Call) (ha : (a.co E).Learns K (fun _ => False))
    (es es2 : List Ev) {r : Res} (h : resultOf E clientId maxRetries es a es2 = some (.ok r)) :
    K (after E clientId maxRetries (es ++ .call a :: es2)).g.data := by
  let n := callTask E clientId maxRetries es
  let fin : Nat → Except PyErr Res → Prop := fun t o => t = n ∧ isOk o
  have hA : ∀ r c, (afterOpen E r c).Asks K (fun _ => False) := fun r c b => Co.knows_nothing (fun _ => id) _
  have h0 : KnowsOk K (fun _ => False) fin (after E clientId maxRetries es) := by
    refine ⟨fun t c code data hm hc => hc.elim, fun t x hx => Task.knows_nothing ?_ x⟩
    rintro o ⟨rfl, -⟩
    have := List.getElem?_eq_some_iff.1 hx
    exact absurd this.1 (Nat.lt_irrefl _)
  have hok : ∀ l, SysOk E False (after E clientId maxRetries l) := fun l => (SysOk.init E False clientId maxRetries).run _ (fun u => u.elim)
  have key : ∀ l, KnowsOk K (fun _ => False) fin (after E clientId maxRetries (es ++ .call a :: l)) := by
    intro l
    refine snoc_ind (P := fun l => KnowsOk K (fun _ => False) fin (after E clientId maxRetries (es ++ .call a :: l))) ?_ ?_ l
    · rw [after_snoc]
      refine h0.step hK hA (hok es) _ ?_
      intro co g0 hsp
      cases hsp with
      | call =>
        have : fin (after E clientId maxRetries es).tasks.length = isOk := by
          funext o
          simp [fin, n, callTask]
        rw [this]
        exact ha _
    · intro l ev ih
      show KnowsOk K (fun _ => False) fin (after E clientId maxRetries (es ++ (.call a :: l ++ [ev])))
      rw [← List.append_assoc, after_snoc]
      refine ih.step hK hA (hok _) _ ?_
      intro co g0 hsp
      refine Co.knows_nothing ?_ co
      rintro o ⟨hl, -⟩
      have h1 : after E clientId maxRetries (es ++ .call a :: l) = (after E clientId maxRetries (es ++ [.call a])).run E l := by
        rw [show es ++ .call a :: l = (es ++ [.call a]) ++ l by simp]
        simp only [after, sys_run_append]
      have h2 := run_length (E := E) l (after E clientId maxRetries (es ++ [.call a]))
      have h3 : (after E clientId maxRetries (es ++ [.call a])).tasks.length = n + 1 := by
        rw [after_snoc]
        simp [Sys.step, Sys.spawn, n, callTask]
      rw [h1] at hl
      omega
  have := key es2
  unfold resultOf Sys.result at h
  split at h
  · rename_i r' hr
    cases h
    exact this.tasks _ _ hr ⟨rfl, r, rfl⟩
  · cases h

/-- When an update has ended normally, the equipment flags are known. -/
theorem update_flags (es es2 : List Ev) {r : Res} (h : resultOf E clientId maxRetries es .update es2 = some (.ok r)) :
    FlagsKnown (after E clientId maxRetries (es ++ .call .update :: es2)).g.data :=
  call_learns E clientId maxRetries (flagsKnown_stays E.pyFloat) .update (Co.learns_first (learns_update E) (fun _ => Co.asks_ret _)) es es2 h

end
end SL
