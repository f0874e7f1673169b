import Verif.Lemmas.Alone
import Verif.Props.RawProps
import Verif.Props.ProvProps
import Verif.Props.ExportProps
/-!
# C93: what a gateway holds can be exported at any time
-/
set_option linter.unusedVariables false

namespace SL

/-- The payload can be decoded on its own. -/
def ReadsAlone (f : String → Except PyErr Rat) (D : Decoder) (b : Bytes) : Prop :=
  b ≠ [] ∧ (decodeWith (D.prog f) b (.dict [])).1 = .ok ()

theorem version_alone (f : String → Except PyErr Rat) (b : Bytes) (d : Val) (h : (decodeWith (decodeVersion f) b d).1 = .ok ()) :
    (decodeWith (decodeVersion f) b (.dict [])).1 = .ok () := by
  have run_start : ∀ (d : Val) (q : Prog Unit), (decodeWith (.setdef [.s "adapter"] (.dict []) q) b d).1 = .ok () →
      ∃ d', (decodeWith q b d').1 = .ok () := by
    intro d q hq
    simp only [decodeWith, Prog.run] at hq
    split at hq
    · exact ⟨_, hq⟩
    · cases hq
  have he : (decodeWith (decodeVersion f) b (.dict [])).1 = (decodeWith (.msgStr fun x => (floatPart f (pySplit x) 1).bind fun major =>
      (floatPart f (pySplit x) 3).bind fun minor => .set [.s "adapter", .s "firmware"]
        (entry "Protocol Adapter Firmware" (.str x) [(.s "major", .flt major), (.s "minor", .flt minor)]) (.pure ())) b
          (.dict [(.s "adapter", .dict [])])).1 := rfl
  obtain ⟨d', h'⟩ := run_start d (.msgStr fun x => (floatPart f (pySplit x) 1).bind fun major =>
      (floatPart f (pySplit x) 3).bind fun minor => .set [.s "adapter", .s "firmware"]
        (entry "Protocol Adapter Firmware" (.str x) [(.s "major", .flt major), (.s "minor", .flt minor)]) (.pure ())) h
  rw [he]
  simp only [decodeWith, Prog.run] at h' ⊢
  cases hm : decodeMessageString b with
  | error e => rw [hm] at h'; cases h'
  | ok x =>
    rw [hm] at h'
    simp only [floatPart] at h' ⊢
    cases h1 : (pySplit x)[1]? with
    | none => rw [h1] at h'; cases h'
    | some s1 =>
      rw [h1] at h'
      dsimp only at h' ⊢
      cases h2 : f s1 with
      | error e => rw [h2] at h'; cases h'
      | ok q1 =>
        rw [h2] at h'
        cases h3 : (pySplit x)[3]? with
        | none =>
          rw [h3] at h'
          cases h'
        | some s3 =>
          rw [h3] at h'
          dsimp only at h' ⊢
          cases h4 : f s3 with
          | error e => rw [h4] at h'; cases h'
          | ok q3 => rfl

/-- What is decoded without an error into some data can be decoded alone. -/
theorem reads_alone {f : String → Except PyErr Rat} {D : Decoder} (hq : D.query ≠ none) {b : Bytes} {d : Val}
    (hd : (decodeWith (D.prog f) b d).1 = .ok ()) : (decodeWith (D.prog f) b (.dict [])).1 = .ok () := by
  cases D with
  | status => exact decode_alone (D := .status) (D' := .status) rfl trails_status hd
  | config => exact decode_alone (D := .config) (D' := .config) rfl trails_config hd
  | scg => exact decode_alone (D := .scg) (D' := .scg) rfl trails_scg hd
  | chemistry => exact decode_alone (D := .chemistry) (D' := .chemistry) rfl trails_chemistry hd
  | pump i => exact decode_alone (D := .pump i) (D' := .pump i) rfl (trails_pump i) hd
  | dateTime now => exact decode_alone (D := .dateTime now) (D' := .dateTime now) rfl (trails_dateTime now now) hd
  | version => exact version_alone f b d hd
  | colorUpdate => exact absurd rfl hq
  | equipment => exact absurd rfl hq

/-- The clock does not matter. -/
theorem alone_clock {f : String → Except PyErr Rat} {now now' : Rat} {b : Bytes} (h : ReadsAlone f (.dateTime now) b) : ReadsAlone f (.dateTime now') b :=
  ⟨h.1, decode_alone (D := .dateTime now) (D' := .dateTime now') rfl (trails_dateTime now now') h.2⟩

/-- An entry of the raw data that can be exported. -/
def Entry (f : String → Except PyErr Rat) (D : Decoder) (o : Option Val) : Prop :=
  o = none ∨ o = some .null ∨ ∃ b, o = some (.bytes b) ∧ ReadsAlone f D b

/-- The raw pump answers that can be exported. -/
def Indexed (f : String → Except PyErr Rat) (o : Option Val) : Prop :=
  o = none ∨ ∃ l, o = some (.dict l) ∧ ∀ x ∈ l, ∃ n b, x = (.i n, .bytes b) ∧ ReadsAlone f (.pump n) b

/-- Raw data that can be exported. -/
structure Raw (f : String → Except PyErr Rat) (kv : List (Key × Val)) : Prop where
  version : Entry f .version (aget (.s "version") kv)
  config : Entry f .config (aget (.s "config") kv)
  status : Entry f .status (aget (.s "status") kv)
  chemistry : Entry f .chemistry (aget (.s "chemistry") kv)
  scg : Entry f .scg (aget (.s "scg") kv)
  dateTime : ∀ now, Entry f (.dateTime now) (aget (.s "date_time") kv)
  pumps : Indexed f (aget (.s "pumps") kv)
  color : aget (.s "color") kv = none

/-- Storing one answer. -/
theorem Raw.put {f : String → Except PyErr Rat} {kv : List (Key × Val)} (h : Raw f kv) (D : Decoder) (hq : D.query ≠ none) {b : Bytes}
    (hb : ReadsAlone f D b) : ∃ kv', Val.put D.rawPath (.bytes b) (.dict kv) = .dict kv' ∧ Raw f kv' := by
  have ne : ∀ {k k' : String}, k ≠ k' → ∀ v : Val, aget (Key.s k') (aset (Key.s k) v kv) = aget (Key.s k') kv :=
    fun h v => aget_aset_ne (by simpa using h) v kv
  cases D with
  | colorUpdate => exact absurd rfl hq
  | equipment => exact absurd rfl hq
  | pump i =>
    simp only [Decoder.rawPath, Val.put]
    refine ⟨_, rfl, ?_, ?_, ?_, ?_, ?_, ?_, ?_, ?_⟩
    · rw [ne (by decide)]; exact h.version
    · rw [ne (by decide)]; exact h.config
    · rw [ne (by decide)]; exact h.status
    · rw [ne (by decide)]; exact h.chemistry
    · rw [ne (by decide)]; exact h.scg
    · intro now; rw [ne (by decide)]; exact h.dateTime now
    · rw [aget_aset_same]
      rcases h.pumps with e | ⟨l, e, hl⟩
      · rw [e]
        exact .inr ⟨_, rfl, fun x hx => by simp [aset] at hx; exact ⟨i, b, hx, hb⟩⟩
      · rw [e]
        refine .inr ⟨_, rfl, fun x hx => ?_⟩
        rcases mem_aset hx with rfl | hm | hm
        · exact ⟨i, b, rfl, hb⟩
        · exact hl x hm.1
        · exact hl x hm
    · rw [ne (by decide)]; exact h.color
  | dateTime now' =>
    simp only [Decoder.rawPath, Val.put]
    refine ⟨_, rfl, ?_, ?_, ?_, ?_, ?_, ?_, ?_, ?_⟩
    · rw [ne (by decide)]; exact h.version
    · rw [ne (by decide)]; exact h.config
    · rw [ne (by decide)]; exact h.status
    · rw [ne (by decide)]; exact h.chemistry
    · rw [ne (by decide)]; exact h.scg
    · intro now; rw [aget_aset_same]; exact .inr (.inr ⟨b, rfl, alone_clock hb⟩)
    · rw [ne (by decide)]; exact h.pumps
    · rw [ne (by decide)]; exact h.color
  | _ =>
    simp only [Decoder.rawPath, Val.put]
    refine ⟨_, rfl, ?_, ?_, ?_, ?_, ?_, ?_, ?_, ?_⟩
    · first | (rw [ne (by decide)]; exact h.version) | (rw [aget_aset_same]; exact .inr (.inr ⟨b, rfl, hb⟩))
    · first | (rw [ne (by decide)]; exact h.config) | (rw [aget_aset_same]; exact .inr (.inr ⟨b, rfl, hb⟩))
    · first | (rw [ne (by decide)]; exact h.status) | (rw [aget_aset_same]; exact .inr (.inr ⟨b, rfl, hb⟩))
    · first | (rw [ne (by decide)]; exact h.chemistry) | (rw [aget_aset_same]; exact .inr (.inr ⟨b, rfl, hb⟩))
    · first | (rw [ne (by decide)]; exact h.scg) | (rw [aget_aset_same]; exact .inr (.inr ⟨b, rfl, hb⟩))
    · intro now; rw [ne (by decide)]; exact h.dateTime now
    · rw [ne (by decide)]; exact h.pumps
    · rw [ne (by decide)]; exact h.color

/-- Storing `None` for the version. -/
theorem Raw.noVersion {f : String → Except PyErr Rat} {kv : List (Key × Val)} (h : Raw f kv) : Raw f (aset (.s "version") .null kv) := by
  have ne : ∀ {k k' : String}, k ≠ k' → ∀ v : Val, aget (Key.s k') (aset (Key.s k) v kv) = aget (Key.s k') kv :=
    fun h v => aget_aset_ne (by simpa using h) v kv
  refine ⟨?_, ?_, ?_, ?_, ?_, ?_, ?_, ?_⟩
  · rw [aget_aset_same]; exact .inr (.inl rfl)
  · rw [ne (by decide)]; exact h.config
  · rw [ne (by decide)]; exact h.status
  · rw [ne (by decide)]; exact h.chemistry
  · rw [ne (by decide)]; exact h.scg
  · intro now; rw [ne (by decide)]; exact h.dateTime now
  · rw [ne (by decide)]; exact h.pumps
  · rw [ne (by decide)]; exact h.color

/-- Preparing the place of the pumps' answers. -/
theorem Raw.noPumps {f : String → Except PyErr Rat} {kv : List (Key × Val)} (h : Raw f kv) (hn : aget (.s "pumps") kv = none) :
    Raw f (aset (.s "pumps") (.dict []) kv) := by
  have ne : ∀ {k k' : String}, k ≠ k' → ∀ v : Val, aget (Key.s k') (aset (Key.s k) v kv) = aget (Key.s k') kv :=
    fun h v => aget_aset_ne (by simpa using h) v kv
  refine ⟨?_, ?_, ?_, ?_, ?_, ?_, ?_, ?_⟩
  · rw [ne (by decide)]; exact h.version
  · rw [ne (by decide)]; exact h.config
  · rw [ne (by decide)]; exact h.status
  · rw [ne (by decide)]; exact h.chemistry
  · rw [ne (by decide)]; exact h.scg
  · intro now; rw [ne (by decide)]; exact h.dateTime now
  · rw [aget_aset_same]; exact .inr ⟨[], rfl, fun x hx => by cases hx⟩
  · rw [ne (by decide)]; exact h.color

/-- What changes the raw data. -/
theorem last_read {E : Env} {U : Prop} {g g' : Gw} (m : Micro E U g g') : g'.last = g.last ∨
    (∃ (D : Decoder) (b : Bytes), D.query ≠ none ∧ ReadsAlone E.pyFloat D b ∧ g'.last = Val.put D.rawPath (.bytes b) g.last) ∨
    g'.last = Val.put [.s "version"] .null g.last ∨ g'.last = Val.putNew [.s "pumps"] (.dict []) g.last := by
  rcases last_cases m with e | ⟨t, D, code, payload, b, hq, hg, e⟩ | e | e
  · exact .inl e
  · cases m with
    | upd t _ _ hu =>
      cases hu with
      | last D code payload b hq hg hb hd =>
        obtain ⟨d, hd⟩ := hd
        exact .inr (.inl ⟨D, b, by rw [hq]; simp, ⟨hb, reads_alone (by rw [hq]; simp) (congrArg Prod.fst hd)⟩, rfl⟩)
      | noVersion o hg ho => exact .inr (.inr (.inl rfl))
      | pumps => exact .inr (.inr (.inr rfl))
      | listen cb code =>
        left
        simp only [Gw.addListener]
        split <;> rfl
      | _ => exact .inl rfl
    | env _ _ he =>
      left
      cases he with
      | handle c =>
        simp only [Gw.runHandler, Gw.commonCallback, Gw.commonCallback.notify]
        repeat' (first | rfl | split)
      | setMaxRetries n =>
        simp only [Gw.setMaxRetries]
        split <;> rfl
      | unsubscribe u =>
        simp only [Gw.unsubscribe, Gw.dropCode]
        repeat' (first | rfl | split)
      | net c e =>
        simp only [Gw.lostCallback]
        repeat' (first | rfl | split)
      | _ => rfl
    | _ => exact .inl rfl
  · exact .inr (.inr (.inl e))
  · exact .inr (.inr (.inr e))

/-- The raw data can be exported, after every history. -/
theorem last_raw (E : Env) (clientId maxRetries : Int) (es : List Ev) :
    ∃ kv, (after E clientId maxRetries es).g.last = .dict kv ∧ Raw E.pyFloat kv := by
  refine reach_asked (I := fun g => ∃ kv, g.last = .dict kv ∧ Raw E.pyFloat kv) (clientId := clientId) (maxRetries := maxRetries) ?_ ?_ es
  · exact ⟨[], rfl, .inl rfl, .inl rfl, .inl rfl, .inl rfl, .inl rfl, fun _ => .inl rfl, .inl rfl, rfl⟩
  · intro g g' ⟨kv, hkv, hR⟩ m
    rcases last_read m.micro with e | ⟨D, b, hq, hb, e⟩ | e | e
    · exact ⟨kv, by rw [e, hkv], hR⟩
    · obtain ⟨kv', h1, h2⟩ := hR.put D hq hb
      exact ⟨kv', by rw [e, hkv, h1], h2⟩
    · exact ⟨_, by rw [e, hkv]; rfl, hR.noVersion⟩
    · rw [hkv] at e
      cases hp : aget (Key.s "pumps") kv with
      | some v => exact ⟨kv, by rw [e]; simp [Val.putNew, Val.look, hp], hR⟩
      | none => exact ⟨_, by rw [e]; simp [Val.putNew, Val.look, hp, Val.put], hR.noPumps hp⟩

theorem decodeNew_alone {f : String → Except PyErr Rat} {D : Decoder} {b : Bytes} (h : ReadsAlone f D b) : ∃ s, decodeNew f D b = .ok s := by
  unfold decodeNew
  cases hd : decodeWith (D.prog f) b (.dict []) with
  | mk r d =>
    have := h.2
    rw [hd] at this
    dsimp only at this
    rw [this]
    exact ⟨_, rfl⟩

theorem buildPart_entry {f : String → Except PyErr Rat} {D : Decoder} {o : Option Val} (h : Entry f D o) : ∃ r, buildPart f (.plain D) o = .ok r := by
  rcases h with rfl | rfl | ⟨b, rfl, hb⟩
  · exact ⟨_, rfl⟩
  · exact ⟨_, rfl⟩
  · obtain ⟨s, hs⟩ := decodeNew_alone hb
    have : (Val.bytes b).truthy = true := by
      have := hb.1
      simp [Val.truthy, this]
    simp only [buildPart, this, if_true, hs]
    exact ⟨_, rfl⟩

theorem buildMany_some {f : String → Except PyErr Rat} : ∀ l : List (Key × Val), (∀ x ∈ l, ∃ n b, x = (.i n, .bytes b) ∧ ReadsAlone f (.pump n) b) →
    ∃ r, buildMany f l = .ok r
  | [], _ => ⟨_, rfl⟩
  | x :: l, h => by
    obtain ⟨n, b, rfl, hb⟩ := h x (by simp)
    obtain ⟨s, hs⟩ := decodeNew_alone hb
    obtain ⟨r, hr⟩ := buildMany_some l (fun y hy => h y (by simp [hy]))
    refine ⟨s :: r, ?_⟩
    simp only [buildMany, hs, hr]
    rfl

theorem buildPumps_ok {f : String → Except PyErr Rat} {o : Option Val} (h : Indexed f o) : ∃ r, buildPart f .indexed o = .ok r := by
  rcases h with rfl | ⟨l, rfl, hl⟩
  · exact ⟨_, rfl⟩
  · obtain ⟨r, hr⟩ := buildMany_some l hl
    simp only [buildPart, hr]
    split <;> exact ⟨_, rfl⟩

/-- Raw data in this form can be exported. -/
theorem build_raw {f : String → Except PyErr Rat} (now : Rat) {kv : List (Key × Val)} (h : Raw f kv) (data : Val) :
    ∃ c, buildCollection f now kv data = .ok c := by
  obtain ⟨r1, h1⟩ := buildPart_entry h.version
  obtain ⟨r2, h2⟩ := buildPart_entry h.config
  obtain ⟨r3, h3⟩ := buildPart_entry h.status
  obtain ⟨r4, h4⟩ := buildPumps_ok h.pumps
  obtain ⟨r5, h5⟩ := buildPart_entry h.chemistry
  obtain ⟨r6, h6⟩ := buildPart_entry h.scg
  obtain ⟨r7, h7⟩ := buildPart_entry (h.dateTime now)
  refine ⟨⟨data, [("version", r1), ("config", r2), ("status", r3), ("pumps", r4), ("chemistry", r5), ("scg", r6), ("color", .none), ("date_time", r7)]⟩, ?_⟩
  have hc : buildPart f (.plain .colorUpdate) none = .ok .none := rfl
  simp only [buildCollection, requestDecoders, buildParts, h1, h2, h3, h4, h5, h6, h7, h.color, hc, bind, Except.bind, pure, Except.pure]

/-- **C93** After every history, `build_response_collection(gateway.get_debug(), gateway.get_data())` succeeds, whatever the
host's clock says: no raw answer the gateway has kept makes it raise. -/
theorem C93_builds (E : Env) (clientId maxRetries : Int) (es : List Ev) (now : Rat) :
    ∃ raw c, (after E clientId maxRetries es).g.last = .dict raw ∧
      buildCollection E.pyFloat now raw (after E clientId maxRetries es).g.data = .ok c ∧ c.decoded = (after E clientId maxRetries es).g.data := by
  obtain ⟨kv, hkv, hR⟩ := last_raw E clientId maxRetries es
  obtain ⟨c, hc⟩ := build_raw now hR (after E clientId maxRetries es).g.data
  exact ⟨kv, c, hkv, hc, (buildCollection_ok hc).1⟩

theorem buildParts_get {f : String → Except PyErr Rat} {raw : List (Key × Val)} : ∀ {ks : List (String × RespKind)} {ps : List (String × Resp)},
    buildParts f raw ks = .ok ps → ∀ n k, aget n ks = some k → ∃ r, aget n ps = some r ∧ buildPart f k (aget (.s n) raw) = .ok r
  | [], ps, h => by intro n k hk; cases hk
  | (n, k) :: ks, ps, h => by
    intro n' k' hk
    rw [buildParts] at h
    cases h1 : buildPart f k (aget (.s n) raw) with
    | error e => rw [h1] at h; cases h
    | ok r =>
      cases h2 : buildParts f raw ks with
      | error e => rw [h1, h2] at h; cases h
      | ok l =>
        rw [h1, h2] at h
        injection h with h
        subst h
        rw [show aget n' ((n, r) :: l) = if n = n' then some r else aget n' l from rfl]
        rw [show aget n' ((n, k) :: ks) = if n = n' then some k else aget n' ks from rfl] at hk
        by_cases hn : n = n'
        · rw [if_pos hn] at hk ⊢
          injection hk with hk
          subst hn hk
          exact ⟨r, rfl, h1⟩
        · rw [if_neg hn] at hk ⊢
          exact buildParts_get h2 n' k' hk

/-- **C93** The collection shows the gateway's own answers: where `get_debug()` has the answer to a query, the collection's field
for that query has exactly these bytes; and the field for the pumps has exactly the pumps' answers, in their order. -/
theorem C93_shows (E : Env) (clientId maxRetries : Int) (es : List Ev) (now : Rat) (raw : List (Key × Val)) (c : Collection)
    (hraw : (after E clientId maxRetries es).g.last = .dict raw)
    (hc : buildCollection E.pyFloat now raw (after E clientId maxRetries es).g.data = .ok c) :
    (∀ n ∈ ["version", "config", "status", "chemistry", "scg", "date_time"], ∀ b, Val.look [.s n] (.dict raw) = some (.bytes b) →
      ∃ d, aget n c.parts = some (.one ⟨b, d⟩)) ∧
    (∀ l, Val.look [.s "pumps"] (.dict raw) = some (.dict l) → l ≠ [] →
      ∃ rs, aget "pumps" c.parts = some (.many rs) ∧ rs.map (fun s => Val.bytes s.raw) = l.map (·.2)) := by
  have hg := fun n k => buildParts_get (buildCollection_ok hc).2 n k
  obtain ⟨kv, hkv, hR⟩ := last_raw E clientId maxRetries es
  have : kv = raw := by rw [hraw] at hkv; injection hkv with h; exact h.symm
  subst this
  have key : ∀ n D b, aget n (requestDecoders now) = some (.plain D) → Entry E.pyFloat D (aget (.s n) kv) → Val.look [.s n] (.dict kv) = some (.bytes b) →
      ∃ d, aget n c.parts = some (.one ⟨b, d⟩) := by
    intro n D b hn he hb
    obtain ⟨r, hr, hb2⟩ := hg n _ hn
    have hb : aget (.s n) kv = some (.bytes b) := by
      simpa [Val.look] using hb
    rcases buildPart_ok hb2 with ⟨_, h⟩ | ⟨D', b', s, _, hb', hne, rfl, rfl, _⟩ | ⟨kv', l, hk, _⟩
    · have := h _ hb
      rcases he with h' | h' | ⟨b', h', hne, _⟩
      · rw [hb] at h'; cases h'
      · rw [hb] at h'; cases h'
      · rw [hb] at h'
        cases h'
        simp [Val.truthy, hne] at this
    · rw [hb] at hb'
      injection hb' with hb'; injection hb' with hb'; subst hb'
      exact ⟨s.decoded, hr⟩
    · cases hk
  refine ⟨?_, ?_⟩
  · intro n hn b hb
    simp only [List.mem_cons, List.not_mem_nil, or_false] at hn
    rcases hn with rfl | rfl | rfl | rfl | rfl | rfl
    · exact key _ _ b rfl hR.version hb
    · exact key _ _ b rfl hR.config hb
    · exact key _ _ b rfl hR.status hb
    · exact key _ _ b rfl hR.chemistry hb
    · exact key _ _ b rfl hR.scg hb
    · exact key _ _ b rfl (hR.dateTime now) hb
  · intro l hl hne
    obtain ⟨r, hr, hb2⟩ := hg "pumps" .indexed rfl
    have hl : aget (.s "pumps") kv = some (.dict l) := by
      simpa [Val.look] using hl
    rcases buildPart_ok hb2 with ⟨_, h⟩ | ⟨D', b', s, hk, _⟩ | ⟨kv', rs, _, hk, _, rfl, hrs, _⟩
    · have := h _ hl
      cases l with
      | nil => exact absurd rfl hne
      | cons x l => simp [Val.truthy] at this
    · cases hk
    · rw [hl] at hk
      injection hk with hk; injection hk with hk; subst hk
      exact ⟨rs, hr, hrs⟩

/-- **C93** Exporting it to JSON and importing the JSON gives the same collection back, if no dict in it has a negative number as a key. -/
theorem C93_returns (E : Env) (clientId maxRetries : Int) (es : List Ev) (now : Rat) (U : UnicodeDb) (hU : U.Ascii) (raw : List (Key × Val)) (c : Collection)
    (hraw : (after E clientId maxRetries es).g.last = .dict raw)
    (hc : buildCollection E.pyFloat now raw (after E clientId maxRetries es).g.data = .ok c)
    (hn : NumberKeys (after E clientId maxRetries es).g.data) (hp : ∀ p ∈ c.parts, ∀ d ∈ p.2.decodeds, NumberKeys d) :
    importCollection U c.export = .ok c.fields :=
  C64_collection_partial E.pyFloat now U hU raw _ c hc (C83_reachable E clientId maxRetries es) hn hp

/-- A gateway that has polled its chlorinator: the raw answer is there, the collection is built and its field shows the answer. -/
theorem C93_witness : ∃ raw c, (after sampleEnv 1 3 (polledEvs .getScg 12573 sampleScg.enc)).g.last = .dict raw ∧
    buildCollection sampleEnv.pyFloat 0 raw (after sampleEnv 1 3 (polledEvs .getScg 12573 sampleScg.enc)).g.data = .ok c ∧
    ∃ d, aget "scg" c.parts = some (.one ⟨sampleScg.enc, d⟩) := by
  obtain ⟨raw, c, h1, h2, -⟩ := C93_builds sampleEnv 1 3 (polledEvs .getScg 12573 sampleScg.enc) 0
  refine ⟨raw, c, h1, h2, (C93_shows sampleEnv 1 3 (polledEvs .getScg 12573 sampleScg.enc) 0 raw c h1 h2).1 "scg" (by simp) _ ?_⟩
  rw [← h1]
  have h : (match Val.look [.s "scg"] (after sampleEnv 1 3 (polledEvs .getScg 12573 sampleScg.enc)).g.last with
    | some (.bytes b) => decide (b = sampleScg.enc)
    | _ => false) = true := by decide +kernel
  split at h
  · rename_i b hb; rw [hb, of_decide_eq_true h]
  · cases h

/-- All the keys in the collection are numbers a JSON document can carry. -/
def portableNow (f : String → Except PyErr Rat) (g : Gw) : Bool :=
  match g.last with
  | .dict raw =>
    match buildCollection f 0 raw g.data with
    | .ok c => numberKeysB g.data && c.parts.all (fun p => p.2.decodeds.all numberKeysB)
    | _ => false
  | _ => false

/-- The hypotheses of `C93_returns` are met by this gateway: what it exports is what is imported. -/
theorem C93_returns_witness (U : UnicodeDb) (hU : U.Ascii) : ∃ raw c, (after sampleEnv 1 3 (polledEvs .getScg 12573 sampleScg.enc)).g.last = .dict raw ∧
    buildCollection sampleEnv.pyFloat 0 raw (after sampleEnv 1 3 (polledEvs .getScg 12573 sampleScg.enc)).g.data = .ok c ∧
    importCollection U c.export = .ok c.fields := by
  have h : portableNow sampleEnv.pyFloat (after sampleEnv 1 3 (polledEvs .getScg 12573 sampleScg.enc)).g = true := by decide +kernel
  obtain ⟨raw, c, h1, h2, -⟩ := C93_builds sampleEnv 1 3 (polledEvs .getScg 12573 sampleScg.enc) 0
  simp only [portableNow, h1, h2, Bool.and_eq_true, List.all_eq_true] at h
  exact ⟨raw, c, h1, h2, C93_returns sampleEnv 1 3 _ 0 U hU raw c h1 h2 (numberKeysB_iff h.1) (fun p hp d hd => numberKeysB_iff (h.2 p hp d hd))⟩

end SL
