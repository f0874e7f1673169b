import Verif.Lemmas.Named
import Verif.Lemmas.Sample
import Verif.Props.PollProps
set_option linter.unusedVariables false
/-!
# C98: what an update guarantees
-/
namespace SL
open Spec

/-- Nobody asks for the configuration by hand: it is asked for only when connecting. -/
def ConfigByConnecting (es : List Ev) : Prop := Ev.call .getConfig ∉ es ∧ ∀ data, Ev.call (.send 12532 data) ∉ es

section
variable {K : Val → Prop} {ask : Int → Prop}
open Co

theorem asks_require (b : Except PyErr Bool) : (require b).Asks K ask := by
  unfold require
  split <;> exact fun b => False.elim

/-- Only the configuration is asked for with 12532, and no call but these two does so by itself. -/
theorem asks_call (E : Env) (a : Call) (h1 : a ≠ .getConfig) (h2 : ∀ data, a ≠ .send 12532 data) : (a.co E).Asks K (· = 12532) := by
  have q : ∀ {D : Gw → Decoder} {code : Int} {p : Except PyErr Bytes}, code ≠ 12532 → ∀ c r, (queryRequest E D code p c r).Asks K (· = 12532) := by
    intro D code p h c r
    exact asks_query (ask := (· = 12532)) (code := code) E D h p c r
  have s : ∀ {code : Int} {p : Except PyErr Bytes}, code ≠ 12532 → (connectedRequest (ackRequest code p)).Asks K (· = 12532) := by
    intro code p h
    exact asks_connected (by decide) (fun c r => asks_ack (ask := (· = 12532)) (code := code) h p c r)
  cases a with
  | connect x => exact asks_bind (asks_connect x) (fun _ => asks_ret _)
  | disconnect force => exact asks_bind (asks_disconnect (by decide) force) (fun _ => asks_ret _)
  | update => exact asks_bind (asks_update E (by decide) (by decide) (by decide) (by decide) (by decide) (by decide)) (fun _ => asks_ret _)
  | getConfig => exact absurd rfl h1
  | getStatus => exact asks_bind (asks_poll (by decide) _ (q (by decide))) (fun _ => asks_ret _)
  | getPumps => exact asks_bind (asks_getPumpsFrom E (by decide) (by decide) _ _) (fun _ => asks_ret _)
  | getChemistry => exact asks_bind (asks_poll (by decide) _ (q (by decide))) (fun _ => asks_ret _)
  | getScg => exact asks_bind (asks_poll (by decide) _ (q (by decide))) (fun _ => asks_ret _)
  | getDatetime => exact asks_bind (asks_poll (by decide) _ (q (by decide))) (fun _ => asks_ret _)
  | setCircuit x y => exact asks_bind (asks_state (fun g => asks_bind (asks_require _) (fun _ => asks_bind (asks_require _) (fun _ => s (by decide))))) (fun _ => asks_ret _)
  | setHeatTemp x y => exact asks_bind (asks_state (fun g => asks_bind (asks_require _) (fun _ => asks_bind (asks_require _) (fun _ => s (by decide))))) (fun _ => asks_ret _)
  | setHeatMode x y => exact asks_bind (asks_state (fun g => asks_bind (asks_require _) (fun _ => asks_bind (asks_require _) (fun _ => s (by decide))))) (fun _ => asks_ret _)
  | setColorLights x => exact asks_bind (asks_bind (asks_require _) (fun _ => s (by decide))) (fun _ => asks_ret _)
  | setScg x y z w => exact asks_bind (asks_state (fun g => asks_bind (asks_ofExcept _) (fun _ => s (by decide)))) (fun _ => asks_ret _)
  | setChem x y z w u v => exact asks_bind (asks_state (fun g => asks_bind (asks_ofExcept _) (fun _ => asks_bind (asks_ofExcept _) (fun _ => s (by decide))))) (fun _ => asks_ret _)
  | setDateTime x y =>
    exact asks_bind (asks_ite (asks_throw _) (asks_state (fun g => asks_bind (asks_ofExcept _) (fun _ => asks_bind (asks_ofExcept _) (fun _ => s (by decide))))))
      (fun _ => asks_ret _)
  | subscribe cb code =>
    refine asks_bind (asks_state (fun g => ?_)) (fun _ => asks_ret _)
    split
    · exact asks_bind (asks_modify _) (fun _ => asks_bind (asks_modify _) (fun _ => asks_state (fun g =>
        asks_bind (asks_when (asks_subscribeGateway (by decide) (by decide))) (fun _ => asks_ret _))))
    · exact fun b => False.elim
  | send code data =>
    exact asks_bind (asks_connected (by decide) (fun c r => asks_make c (fun e => h2 data (by rw [e])) _ _)) (fun _ => asks_ret _)

end

section
variable (E : Env) (clientId maxRetries : Int)

theorem config_after_version (es : List Ev) (h : ConfigByConnecting es) : KnowsOk VersionKnown (· = 12532) (fun _ _ => False) (after E clientId maxRetries es) := by
  revert h
  refine snoc_ind (P := fun l => ConfigByConnecting l → KnowsOk VersionKnown (· = 12532) (fun _ _ => False) (after E clientId maxRetries l)) ?_ ?_ es
  · exact fun _ => ⟨fun t c code data hm => absurd hm (by simp [after, Sys.run, Sys.init]), fun t x hx => absurd hx (by simp [after, Sys.run, Sys.init])⟩
  · intro l ev ih h
    rw [after_snoc]
    refine (ih ⟨fun ha => h.1 (by simp [ha]), fun data ha => h.2 data (by simp [ha])⟩).step (versionKnown_stays E.pyFloat) (afterOpen_asks E)
      ((SysOk.init E False clientId maxRetries).run _ (fun u => u.elim)) ev ?_
    intro co g0 hsp
    cases hsp with
    | call a => exact asks_call E a (fun e => h.1 (by simp [e])) (fun data e => h.2 data (by simp [e])) _
    | ping c => exact asks_ping (by decide) _
    | unsub hu => exact Co.asks_bind (asks_unsubscribeGateway (by decide)) (fun _ => Co.asks_ret _) _

/-- What is looked up is what is stored. -/
theorem look_stored {es : List Ev} {p : Path} {v : Val} (hl : (after E clientId maxRetries es).g.data.look p = some v) :
    getData false p (after E clientId maxRetries es).g.data = .ok v :=
  have ht := reachable_tree (C83_reachable E clientId maxRetries es)
  look_getData (fun r w _ hl => tree_look ht hl) hl

theorem value_stored {es : List Ev} {q : Path} (hq : ((after E clientId maxRetries es).g.data.look (q ++ [.s "value"])).isSome) :
    ∃ v, v ≠ .null ∧ getValue false q (after E clientId maxRetries es).g.data = .ok v := by
  have ht := reachable_tree (C83_reachable E clientId maxRetries es)
  obtain ⟨v, hv⟩ := Option.isSome_iff_exists.1 hq
  have hnn := tree_look ht hv
  refine ⟨v, hnn, ?_⟩
  rw [look_append, Option.bind_eq_some_iff] at hv
  obtain ⟨x, hx, hv⟩ := hv
  unfold getValue getAttr
  rw [look_stored E clientId maxRetries hx]
  cases x with
  | dict kv =>
    simp only [Val.look, Option.bind_eq_some_iff] at hv
    obtain ⟨y, hy, hv⟩ := hv
    cases hv
    dsimp only
    rw [hy]
    cases v with
    | null => exact absurd rfl hnn
    | _ => rfl
  | _ => cases hv

/-- **C98** (flags and model).  When a call of `async_update` or `async_get_pumps` has returned normally, the equipment flags (a whole
number) and the controller's model are known, then and at any later moment. -/
theorem C98_flags (a : Call) (ha : a = .update ∨ a = .getPumps) (es es2 es3 : List Ev) {r : Res} (h : resultOf E clientId maxRetries es a es2 = some (.ok r)) :
    (∃ n, getData false [.s "controller", .s "equipment", .s "flags"] (after E clientId maxRetries (es ++ .call a :: es2 ++ es3)).g.data = .ok (.int n)) ∧
    ∃ v, v ≠ .null ∧ getValue false [.s "controller", .s "model"] (after E clientId maxRetries (es ++ .call a :: es2 ++ es3)).g.data = .ok v := by
  have hf : FlagsKnown (after E clientId maxRetries (es ++ .call a :: es2)).g.data := by
    rcases ha with rfl | rfl
    · exact update_flags E clientId maxRetries es es2 h
    · refine call_learns E clientId maxRetries (flagsKnown_stays E.pyFloat) .getPumps ?_ es es2 h
      refine Co.learns_first ?_ (fun _ => Co.asks_ret _)
      exact Co.learns_first (learns_getPump E 0) (fun _ => asks_getPumpsFrom E id id _ _)
  have hf3 : FlagsKnown (after E clientId maxRetries (es ++ .call a :: es2 ++ es3)).g.data :=
    later_data E clientId maxRetries (R := fun a b => FlagsKnown a → FlagsKnown b) (fun _ => id) (fun _ _ _ h1 h2 h => h2 (h1 h))
      (fun D b d => flagsKnown_stays E.pyFloat D b d) _ es3 hf
  obtain ⟨w, hw⟩ := Option.isSome_iff_exists.1 hf3
  obtain ⟨⟨n, rfl⟩, hm⟩ := flagsOk_after E clientId maxRetries _ w hw
  exact ⟨⟨n, look_stored E clientId maxRetries hw⟩, value_stored E clientId maxRetries (q := [.s "controller", .s "model"]) hm⟩

/-- **C98** (version).  If nobody asks for the configuration by hand, the flags are known only when the adapter's version is. -/
theorem C98_version (es : List Ev) (h : ConfigByConnecting es) {n : Int}
    (hf : getData false [.s "controller", .s "equipment", .s "flags"] (after E clientId maxRetries es).g.data = .ok (.int n)) :
    ∃ v, v ≠ .null ∧ getValue false [.s "adapter", .s "firmware"] (after E clientId maxRetries es).g.data = .ok v := by
  have hk : FlagsKnown (after E clientId maxRetries es).g.data := flagsKnown_of (n := n.toNat) (by unfold equipmentFlags; rw [hf])
  obtain ⟨t, c, p, hm⟩ := flags_asked E clientId maxRetries es hk
  exact value_stored E clientId maxRetries ((config_after_version E clientId maxRetries es h).log t c _ p hm rfl)

end

/-- An adapter that does not tell its version. -/
def versionlessEvs : List Ev := [.call (.connect { ip := some "10.0.0.1" }), .opened 0 true, .resume 0] ++ reply 0 0 15 (wireText "00-C0-33-00-00-01") ++ [.resume 0] ++
  reply 0 1 28 [] ++ [.resume 0] ++ reply 0 2 8121 [] ++ [.resume 0]

/-- ... asked for its configuration by hand. -/
def handConfigEvs : List Ev := versionlessEvs ++ [.call .getConfig] ++ reply 0 3 12533 sampleConfig.enc ++ [.resume 1]

/-- **C98** needs it: an adapter that does not tell its version, asked for its configuration by hand, gives flags without a version. -/
theorem C98_by_hand : (∃ n, getData false [.s "controller", .s "equipment", .s "flags"] (after sampleEnv 1 3 handConfigEvs).g.data = .ok (.int n)) ∧
    getValue false [.s "adapter", .s "firmware"] (after sampleEnv 1 3 handConfigEvs).g.data = .ok .null := by
  refine ⟨⟨32796, ?_⟩, ?_⟩
  · decide +kernel
  · decide +kernel

/-- A pump poll that returns, and a history in which the configuration was asked for only when connecting. -/
theorem C98_witness : ConfigByConnecting connectEvs ∧
    getData false [.s "controller", .s "equipment", .s "flags"] (after sampleEnv 1 3 connectEvs).g.data = .ok (.int 32796) ∧
    resultOf sampleEnv 1 3 connectEvs .getPumps (reply 0 4 12585 samplePump.enc ++ [.resume 1]) = some (.ok .none) := by
  refine ⟨⟨?_, ?_⟩, ?_, ?_⟩
  · simp [connectEvs, loginEvs, configEvs, reply]
  · simp [connectEvs, loginEvs, configEvs, reply]
  · decide +kernel
  · decide +kernel

end SL
