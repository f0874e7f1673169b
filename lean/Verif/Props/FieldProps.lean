import Verif.Lemmas.Places
import Verif.Props.ProvProps
import Verif.Props.CliExportProps
import Verif.Props.AttributeProps
/-!
# C108: every reading is what a received message says
-/
set_option linter.unusedVariables false
set_option maxRecDepth 20000
namespace SL

theorem made_known {f : String → Except PyErr Rat} {M : Decoder → Bytes → Prop} {d : Val} (h : MadeFrom f M d) :
    KnownAs (fun q v => ∃ D m, M D m ∧ Tells D m q v) d := by
  induction h with
  | init =>
    intro q ht x hx
    cases q with
    | nil => exact absurd (told_place ht).1 (by intro h; rcases ht with ⟨s, e⟩ | ⟨id, e⟩ <;> cases e)
    | cons k q => simp [Val.look, aget] at hx
  | step D b hm _ ih =>
    exact shown_run (fun q v h => ⟨D, b, hm, h⟩) (allOps_and (D.fits f) (D.sheeted f)) (D.shown f b) ih

/-- What is found at a place under groups is in the data there. -/
theorem place_look {f : String → Except PyErr Rat} {d : Val} (hd : Reachable f d) {q : Path} (hn : isNode q.dropLast = true) (hq : q ≠ []) {v : Val}
    (hv : v ≠ .null) {r : Path} (hr : ∀ i, Key.i i ∉ r) (h : getData false (q ++ r) d = .ok v) : d.look (q ++ r) = some v := by
  refine getData_dicts (fun r' i w hp hl => (reachable_sound hd).shaped r' w ?_ hl) hv h
  rw [Bool.or_eq_true]
  left
  obtain ⟨q', k, rfl⟩ : ∃ q' k, q = q' ++ [k] := by
    rcases List.eq_nil_or_concat q with rfl | ⟨q', k, rfl⟩
    · exact absurd rfl hq
    · exact ⟨q', k, by rw [List.concat_eq_append]⟩
  rw [List.dropLast_concat] at hn
  refine isNode_prefix hn ?_
  rcases List.prefix_or_prefix_of_prefix hp (List.prefix_append (q' ++ [k]) r) with h1 | ⟨t, ht⟩
  · exact prefix_snoc h1
  · rcases List.eq_nil_or_concat t with rfl | ⟨t', a, rfl⟩
    · rw [List.append_nil] at ht
      rw [(List.append_inj' ht rfl).1]
    · rw [List.concat_eq_append, ← List.append_assoc] at ht
      obtain ⟨e1, e2⟩ := List.append_inj' ht rfl
      exfalso
      cases e2
      obtain ⟨u, hu⟩ := hp
      rw [← e1] at hu
      have : r = t' ++ [Key.i i] ++ u := by
        apply List.append_cancel_left (as := q' ++ [k])
        rw [← hu]; simp
      exact hr i (by rw [this]; simp)

/-- Only these have no fixed place. -/
theorem tells_firmware {D : Decoder} {m : Bytes} {v : Val} (h : Tells D m [.s "adapter", .s "firmware"] v) :
    D = .version ∧ ∃ t utf16 body rest, v = .str t ∧ m = Spec.u32 (lengthWord utf16 body.length) ++ body ++ rest ∧ EncodesText utf16 body t := by
  generalize hp : ([.s "adapter", .s "firmware"] : Path) = p at h
  cases h with
  | fixed _ _ _ f _ hf _ =>
    subst hp
    exfalso
    cases D <;> simp [places, statusPlaces, configPlaces, scgPlaces, chemPlaces, timePlaces] at hf
  | tail _ _ f _ n c _ _ hf _ => subst hp; simp [tailPlaces] at hf
  | firmware _ t u body rest hm hb => exact ⟨rfl, t, u, body, rest, rfl, hm, hb⟩
  | _ => simp at hp
theorem tells_model {D : Decoder} {m : Bytes} {v : Val} (h : Tells D m [.s "controller", .s "model"] v) :
    D = .config ∧ ∃ c h, v = .str (Spec.modelName c h) ∧ NumAt m 9 .B c ∧ NumAt m 10 .B h := by
  generalize hp : ([.s "controller", .s "model"] : Path) = p at h
  cases h with
  | fixed _ _ _ f _ hf _ =>
    subst hp
    exfalso
    cases D <;> simp [places, statusPlaces, configPlaces, scgPlaces, chemPlaces, timePlaces] at hf
  | tail _ _ f _ n c _ _ hf _ => subst hp; simp [tailPlaces] at hf
  | model _ c h hc hh => exact ⟨rfl, c, h, rfl, hc, hh⟩
  | _ => simp at hp

section
variable (E : Env) (clientId maxRetries : Int)

/-- **C108** In every history, every documented reading is either not there yet (`get_value` gives `None`) or is
what some message the adapter sent for it says at the documented place: the bytes there, with the documented width, sign and
scale, or the documented text.  The message was the answer to the query of that kind (for a pump, of that very pump) or was pushed with its code. -/
theorem C108_reading (es : List Ev) (q : Path) (s : Sheet) (hs : sheet q = some s) :
    getValue false q (after E clientId maxRetries es).g.data = .ok .null ∨
    ∃ D m v, SentFor (after E clientId maxRetries es).g D m ∧ Tells D m q v ∧ getValue false q (after E clientId maxRetries es).g.data = .ok v := by
  have hr := C83_reachable E clientId maxRetries es
  have hm := made_known (C83_provenance E clientId maxRetries es)
  generalize (after E clientId maxRetries es).g = g at *
  have ht := reachable_tree hr
  rw [C35_value _ _ _ (tree_look (p := []) ht rfl)]
  obtain ⟨v, hv⟩ := getData_lax (q ++ [.s "value"]) g.data
  by_cases h0 : v = .null
  · exact .inl (by rw [hv, h0])
  right
  have hn := (sheet_place hs).1
  have hq0 : q ≠ [] := by rintro rfl; rw [show sheet [] = none from rfl] at hs; cases hs
  have hl := place_look hr hn hq0 h0 (r := [.s "value"]) (by simp) hv
  rw [look_append] at hl
  cases hw : g.data.look q with
  | none => rw [hw] at hl; cases hl
  | some w =>
    rw [hw] at hl
    cases w with
    | dict kv =>
      have hv' : aget (.s "value") kv = some v := by
        simp only [Option.bind_some, Val.look] at hl
        cases ha : aget (.s "value") kv with
        | none => rw [ha] at hl; cases hl
        | some y => rw [ha] at hl; exact hl
      have hval : valOf q (.dict kv) = some v := by
        rw [valOf.eq_def]
        split
        · rename_i h1 _
          cases hs
        · rename_i e; cases e; exact hv'
        · rename_i h2 h1; exact absurd rfl (h1 kv)
      obtain ⟨D, m, h1, h2⟩ := hm q (.inl ⟨s, hs⟩) _ hw v hval
      exact ⟨D, m, v, h1, h2, hv⟩
    | _ => simp [Val.look] at hl

/-- **C105** (where the version comes from).  `version` is `None`, or the text in a version message of the adapter: what follows is the
wire format of a text. -/
theorem C105_version_said (es : List Ev) : (after E clientId maxRetries es).g.version = .ok .null ∨
    ∃ m t utf16 body rest, (after E clientId maxRetries es).g.version = .ok (.str t) ∧ AnsweredWith (after E clientId maxRetries es).g 8120 [] m ∧
      m = Spec.u32 (lengthWord utf16 body.length) ++ body ++ rest ∧ EncodesText utf16 body t := by
  refine (C108_reading E clientId maxRetries es [.s "adapter", .s "firmware"] _ rfl).imp id (fun ⟨D, m, v, h1, h2, h3⟩ => ?_)
  obtain ⟨rfl, t, u, body, rest, rfl, hm, hb⟩ := tells_firmware h2
  refine ⟨m, t, u, body, rest, h3, ?_, hm, hb⟩
  rcases h1 with ⟨code, p, hq, ha⟩ | ⟨code, hk, -⟩
  · cases hq; exact ha
  · cases hk

/-- **C105** (where the model comes from).  `controller_model` is `None`, or the name of the two numbers at bytes 9 and 10 of an answer
to the configuration query. -/
theorem C105_model_said (es : List Ev) : (after E clientId maxRetries es).g.controllerModel = .ok .null ∨
    ∃ m c h, (after E clientId maxRetries es).g.controllerModel = .ok (.str (Spec.modelName c h)) ∧
      AnsweredWith (after E clientId maxRetries es).g 12532 [0, 0, 0, 0, 0, 0, 0, 0] m ∧ NumAt m 9 .B c ∧ NumAt m 10 .B h := by
  refine (C108_reading E clientId maxRetries es [.s "controller", .s "model"] _ rfl).imp id (fun ⟨D, m, v, h1, h2, h3⟩ => ?_)
  obtain ⟨rfl, c, h, rfl, hc, hh⟩ := tells_model h2
  refine ⟨m, c, h, h3, ?_, hc, hh⟩
  rcases h1 with ⟨code, p, hq, ha⟩ | ⟨code, hk, -⟩
  · cases hq; exact ha
  · cases hk

/-- **C108** (circuits).  Whether a circuit is on: `get_value("circuit", id)` is `None` or what a status message says about a
circuit of that number. -/
theorem C108_circuit (es : List Ev) (id : Int) :
    getValue false [.s "circuit", .i id] (after E clientId maxRetries es).g.data = .ok .null ∨
    ∃ m v, SentFor (after E clientId maxRetries es).g .status m ∧ Tells .status m [.s "circuit", .i id, .s "value"] v ∧
      getValue false [.s "circuit", .i id] (after E clientId maxRetries es).g.data = .ok v := by
  have hr := C83_reachable E clientId maxRetries es
  have hm := made_known (C83_provenance E clientId maxRetries es)
  generalize (after E clientId maxRetries es).g = g at *
  have ht := reachable_tree hr
  rw [C35_value _ _ _ (tree_look (p := []) ht rfl)]
  obtain ⟨v, hv⟩ := getData_lax ([.s "circuit", .i id, .s "value"]) g.data
  by_cases h0 : v = .null
  · exact .inl (by rw [← h0]; exact hv)
  right
  have hl := place_look hr (q := [.s "circuit", .i id, .s "value"]) rfl (by simp) h0 (r := []) (by simp) hv
  obtain ⟨D, m, h1, h2⟩ := hm _ (.inr ⟨id, rfl⟩) _ hl v rfl
  have key : D = .status := by
    generalize hp : ([.s "circuit", .i id, .s "value"] : Path) = p at h2
    cases h2 with
    | fixed _ _ _ f _ hf _ =>
      subst hp
      exfalso
      cases D <;> simp [places, statusPlaces, configPlaces, scgPlaces, chemPlaces, timePlaces] at hf
    | body => rfl
    | circuit => rfl
    | tail => rfl
    | pump => simp at hp
    | model => simp at hp
    | chemFirmware => simp at hp
    | firmware => simp at hp
  subst key
  exact ⟨m, v, h1, h2, hv⟩
end

/-- **C108** (nothing left out).  Every documented reading that is a number has a documented place. -/
theorem C108_places (q : Path) (s : Sheet) (hs : sheet q = some s) (hk : s.kind ≠ .text) :
    (∃ D f, (q, f) ∈ places D) ∨ (∃ f, (q, f) ∈ tailPlaces) ∨
    (∃ i key f, q = [.s "body", i, .s key] ∧ (key, f) ∈ bodyPlaces) ∨ (∃ i key f, q = [.s "pump", i, .s key] ∧ (key, f) ∈ pumpPlaces) := by
  unfold sheet at hs
  split at hs
  · rename_i i k
    right; right; left
    have hm := mem_of_aget hs
    have : ∀ e ∈ bodySheets, (aget e.1 bodyPlaces).isSome = true := by decide
    obtain ⟨f, hf⟩ := Option.isSome_iff_exists.1 (this _ hm)
    exact ⟨i, k, f, rfl, mem_of_aget hf⟩
  · rename_i i k
    right; right; right
    have hm := mem_of_aget hs
    have : ∀ e ∈ pumpSheets, (aget e.1 pumpPlaces).isSome = true := by decide
    obtain ⟨f, hf⟩ := Option.isSome_iff_exists.1 (this _ hm)
    exact ⟨i, k, f, rfl, mem_of_aget hf⟩
  · have hm := mem_of_aget hs
    have : ∀ e ∈ ctlSheets ++ scgSheets ++ chemSheets, e.2.kind = .text ∨ (aget e.1 tailPlaces).isSome = true ∨
        ∃ D ∈ [Decoder.status, .config, .scg, .chemistry, .dateTime 0], (aget e.1 (places D)).isSome = true := by decide +kernel
    rcases this _ hm with h | h | ⟨D, -, h⟩
    · exact absurd h hk
    · obtain ⟨f, hf⟩ := Option.isSome_iff_exists.1 h
      exact .inr (.inl ⟨f, mem_of_aget hf⟩)
    · obtain ⟨f, hf⟩ := Option.isSome_iff_exists.1 h
      exact .inl ⟨D, f, mem_of_aget hf⟩

/-- **C108** (one number).  What a message says at a place is one number. -/
theorem C108_number_unique {m : Bytes} {o : Nat} {f : Fmt} {x y : Int} (hx : NumAt m o f x) (hy : NumAt m o f y) : x = y := by
  obtain ⟨pre, bs, post, e1, l1, h1⟩ := hx
  obtain ⟨pre', bs', post', e2, l2, h2⟩ := hy
  have hlen : ∀ {bs : Bytes} {z : Int}, fieldValue f bs = some z → bs.length = f.size := by
    intro bs z h
    unfold fieldValue at h
    split at h <;> first | rfl | cases h
  have a := hlen h1
  have b := hlen h2
  rw [e1, List.append_assoc, List.append_assoc] at e2
  obtain ⟨-, e3⟩ := List.append_inj e2 (by rw [l1, l2])
  obtain ⟨rfl, -⟩ := List.append_inj e3 (by rw [a, b])
  rw [h1] at h2
  exact Option.some.inj h2

/-- After a chlorinator poll the salt reading is what the answer says at byte 16: 60, shown as 3000. -/
theorem C108_witness : (sheet [.s "scg", .s "sensor", .s "salt_ppm"]).isSome = true ∧
    getValue false [.s "scg", .s "sensor", .s "salt_ppm"] (after sampleEnv 1 3 (polledEvs .getScg 12573 sampleScg.enc)).g.data = .ok (.int 3000) ∧
    Tells .scg sampleScg.enc [.s "scg", .s "sensor", .s "salt_ppm"] (.int 3000) :=
  ⟨rfl, C85_witness.2.2.2, .fixed _ _ _ ⟨16, .I, .fifties⟩ _ (mem_of_aget rfl)
    ⟨60, ⟨sampleScg.enc.take 16, [60, 0, 0, 0], sampleScg.enc.drop 20, by decide, by decide, by decide⟩, rfl⟩⟩

end SL
