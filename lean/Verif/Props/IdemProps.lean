import Verif.Lemmas.Idem
import Verif.Props.PumpProps
/-!
# C62: decoding the same message twice; C59: failing messages
-/
namespace SL
open Spec
open Prog (rd rdString rdArray rdTime rdMsgString offset store setdefault lookup throw loop forRange)

theorem decodeWith_eq (p : Prog Unit) (m : Bytes) (d : Val) :
    decodeWith p m d = ((p.run m 0 d).1.map (fun _ => ()), (p.run m 0 d).2) := rfl

theorem gets_same (f : String → Except PyErr Rat) (D : Decoder) (hD : D.profile.msgs = false) (m : Bytes) (d : Val) :
    trace (fun g => Val.look g ((D.prog f).run m 0 d).2) (D.prog f) 0 m = trace (fun g => Val.look g d) (D.prog f) 0 m := by
  refine trace_congr (P := fun op => opOK D.profile op = true) (fun g hg => ?_) (D.fits f) 0 m
  have : g ∈ D.profile.gets := by simpa [opOK] using hg
  exact gets_stay (D.fits f) m d g this

theorem floatPart_cases (g : String → Except PyErr Rat) (parts : List String) (i : Nat) :
    (∃ q, floatPart g parts i = pure q) ∨ ∃ e, floatPart g parts i = Prog.throw e := by
  unfold floatPart
  split
  · exact .inr ⟨_, rfl⟩
  · split
    · exact .inl ⟨_, rfl⟩
    · exact .inr ⟨_, rfl⟩

/-- What the version decoder does to well-shaped data. -/
theorem version_cases (f : String → Except PyErr Rat) (m : Bytes) :
    (∃ e, ∀ d, Sound d → decodeWith (decodeVersion f) m d = (.error e, Val.putNew [.s "adapter"] (.dict []) d)) ∨
    (∃ x, ∀ d, Sound d → decodeWith (decodeVersion f) m d =
      (.ok (), Val.put [.s "adapter", .s "firmware"] x (Val.putNew [.s "adapter"] (.dict []) d))) := by
  have h0 : ∀ d, Sound d → ∃ kv, Val.look [] d = some (.dict kv) := fun d hd => by
    obtain ⟨kv, rfl⟩ := hd.root; exact ⟨kv, by simp⟩
  have h1 : ∀ d, Sound d → ∃ kv, Val.look [.s "adapter"] (Val.putNew [.s "adapter"] (.dict []) d) = some (.dict kv) := fun d hd => by
    obtain ⟨-, kv, h⟩ := present_putNew (E := []) hd.shaped (fun e he => by simp at he) (p := [.s "adapter"]) (okDef_empty rfl)
      [.s "adapter"] (by simp [isNode, nodePats, pathMatches])
    exact ⟨kv, h⟩
  unfold decodeVersion
  cases hs : decodeMessageString m with
  | error e =>
    refine .inl ⟨e, fun d hd => ?_⟩
    obtain ⟨kv, hkv⟩ := h0 d hd
    simp only [decodeWith, setdefault, bind, Prog.bind, Prog.run, List.dropLast_singleton, hkv, rdMsgString, hs, Except.map]
  | ok s =>
    have step : ∀ d, Sound d → ∀ k : String → Prog Unit, (setdefault [.s "adapter"] (.dict []) >>= fun _ => rdMsgString >>= k).run m 0 d =
        (k s).run m 0 (Val.putNew [.s "adapter"] (.dict []) d) := by
      intro d hd k
      obtain ⟨kv, hkv⟩ := h0 d hd
      simp only [setdefault, bind, Prog.bind, Prog.run, List.dropLast_singleton, hkv, rdMsgString, hs]
    rcases floatPart_cases f (pySplit s) 1 with ⟨q1, hq1⟩ | ⟨e, he⟩
    · rcases floatPart_cases f (pySplit s) 3 with ⟨q2, hq2⟩ | ⟨e, he⟩
      · refine .inr ⟨entry "Protocol Adapter Firmware" (.str s) [(.s "major", .flt q1), (.s "minor", .flt q2)], fun d hd => ?_⟩
        obtain ⟨kv, hkv⟩ := h1 d hd
        rw [decodeWith_eq, step d hd]
        simp only [hq1, hq2, bind, pure, Prog.bind, store, Prog.run, List.dropLast_cons_cons, List.dropLast_singleton, hkv, Except.map]
      · refine .inl ⟨e, fun d hd => ?_⟩
        rw [decodeWith_eq, step d hd]
        simp only [hq1, he, bind, pure, Prog.bind, Prog.throw, Prog.run, Except.map]
    · refine .inl ⟨e, fun d hd => ?_⟩
      rw [decodeWith_eq, step d hd]
      simp only [he, bind, Prog.bind, Prog.throw, Prog.run, Except.map]

/-- C62: for every decoder, message (complete or not) and data a gateway can hold: decoding the message a second
time has the same outcome and leaves the data exactly (including the order of the keys) as after the first time. -/
theorem C62_idempotent (f : String → Except PyErr Rat) (D : Decoder) (m : Bytes) (d : Val) (hd : Reachable f d) :
    decodeWith (D.prog f) m (decodeWith (D.prog f) m d).2 = decodeWith (D.prog f) m d := by
  have hs := reachable_sound hd
  have hs2 := sound_run f D m hs
  by_cases hD : D.profile.msgs = false
  · have h1 := decode_trace f D hD m hs
    have h2 := decode_trace f D hD m hs2
    have h3 := gets_same f D hD m d
    have e : (decodeWith (D.prog f) m d).2 = ((D.prog f).run m 0 d).2 := rfl
    rw [e] at h2 ⊢
    rw [decodeWith_eq, h2, h3, decodeWith_eq, h1]
    have := replay_twice (log_ok (D.fits f) (D.disc f) (fun g => Val.look g d) 0 m) d
    simp only [this]
  · have : D = .version := by cases D <;> first | rfl | simp [Decoder.profile] at hD
    subst this
    simp only [Decoder.prog] at hs2 ⊢
    rcases version_cases f m with ⟨e, h⟩ | ⟨x, h⟩
    · rw [h _ hs2, h _ hs, putNew_of_some (look_putNew_same [.s "adapter"] _ d)]
    · rw [h _ hs2, h _ hs]
      have hn : Val.look [.s "adapter"] (Val.put [.s "adapter", .s "firmware"] x (Val.putNew [.s "adapter"] (.dict []) d)) ≠ none := by
        obtain ⟨kv, hkv⟩ := look_put_above (p := [.s "adapter", .s "firmware"]) (q := [.s "adapter"]) x
          (Val.putNew [.s "adapter"] (.dict []) d) (by simp) (by simp)
        rw [hkv]; simp
      obtain ⟨y, hy⟩ := Option.ne_none_iff_exists'.1 hn
      rw [putNew_of_some hy, put_put]

/-! ## C59 -/

/-- Everything after the first field of a chlorinator message. -/
theorem scg_rest (env : Path → Option Val) (o : Nat) (v : UInt32) (r : Bytes) : ∃ rest : Prog Unit,
    trace env decodeScg o (u32 v.toNat ++ r) =
      logged (.dflt [.s "scg"] (.dict [])) (logged (.set [.s "scg", .s "scg_present"] (.int v.toNat)) (trace env rest (o + 4) r)) ∧
    Conforms { gets := [[.s "scg", .s "scg_present"]], top := ["scg"] } rest := by
  unfold decodeScg
  rw [tr_setdefault, tr_I, tr_store]
  refine ⟨_, rfl, ?_⟩
  repeat fit_step

/-- C59 is false: a chlorinator message cut anywhere after its first number fails, but that number has been
stored, whatever the data before. -/
theorem C59_refuted (f : String → Except PyErr Rat) (m : Scg) (n : Nat) (h4 : 4 ≤ n) (hn : n < m.enc.length) (d : Val)
    (hd : Reachable f d) :
    (decodeWith decodeScg (m.enc.take n) d).1 = .error .structError ∧
    Val.look [.s "scg", .s "scg_present"] (decodeWith decodeScg (m.enc.take n) d).2 = some (.int m.present.toNat) := by
  refine ⟨C60_scg f m d hd n hn, ?_⟩
  have e : m.enc.take n = u32 m.present.toNat ++ (m.enc.drop 4).take (n - 4) := by
    have hl : (u32 m.present.toNat).length = 4 := by simp [length_u32]
    have : m.enc = u32 m.present.toNat ++ m.enc.drop 4 := by
      simp only [Scg.enc, List.flatten_cons]
      rw [List.drop_append_of_le_length (by omega), List.drop_of_length_le (by omega)]
      rfl
    conv => lhs; rw [this]
    rw [List.take_append, hl, List.take_of_length_le (by omega)]
  have hr := decode_trace f .scg rfl (m.enc.take n) (reachable_sound hd)
  obtain ⟨rest, h1, h2⟩ := scg_rest (fun g => Val.look g d) 0 m.present ((m.enc.drop 4).take (n - 4))
  rw [decodeWith_eq]
  simp only [Decoder.prog] at hr
  rw [hr, e, h1]
  simp only [logged, replay, W.app]
  rw [look_replay_avoid]
  · rw [look_put_same]
  · intro w hw
    have := log_all h2 _ _ _ w hw
    cases w with
    | set p x => simp only [opOK, List.all_cons, List.all_nil, Bool.and_true, Bool.and_eq_true] at this; simpa [W.avoids] using this.1
    | dflt p x => simp only [opOK, List.all_cons, List.all_nil, Bool.and_true, Bool.and_eq_true] at this; simpa [W.avoids] using this.1

/-- C59 on an instance: the data differ. -/
example : (decodeWith decodeScg (([1, 0, 0, 0] : Bytes) ++ [9]) (.dict [])).1 = .error .structError ∧
    (decodeWith decodeScg (([1, 0, 0, 0] : Bytes) ++ [9]) (.dict [])).2 ≠ .dict [] := by decide +kernel

/-- The true part of C59: a message, failing or not, leaves the branches of the data that are not its own
unchanged, and nothing disappears. -/
theorem C59_partial (f : String → Except PyErr Rat) (D : Decoder) (m : Bytes) (d : Val) :
    (∀ k, (∀ s ∈ branches D, k ≠ .s s) → ∀ q, Val.look (k :: q) (decodeWith (D.prog f) m d).2 = Val.look (k :: q) d) ∧
    (∀ q, isNode q.dropLast = true → (Val.look q d).isSome → (Val.look q (decodeWith (D.prog f) m d).2).isSome) :=
  ⟨fun k hk q => C58_frame_below f D m d k q hk, fun q hq h => present_stays f D m d q hq h⟩

end SL
