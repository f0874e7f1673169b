import Verif.Props.DecodeProps
/-!
# C56 (in part), C57, C58, C60: properties shared by the decoders
-/
namespace SL
open Spec
open Prog (rd rdString rdArray rdTime rdMsgString offset store setdefault lookup throw loop forRange)

/-! ## C57: trailing bytes -/

/-- C57: a decoder that accepts a message accepts it with any extra bytes appended, and stores the same data. -/
theorem C57_trailing (f : String → Except PyErr Rat) (D : Decoder) (m extra : Bytes) (d : Val)
    (h : (decodeWith (D.prog f) m d).1 = .ok ()) :
    decodeWith (D.prog f) (m ++ extra) d = decodeWith (D.prog f) m d := by
  unfold decodeWith at h ⊢
  rcases run_mono (D.prog f) m extra 0 d with h1 | h1
  · simp [h1, Except.map] at h
  · rw [h1]

/-- More generally, appending bytes changes nothing unless the decoder ran out of bytes. -/
theorem C57_trailing_failing (f : String → Except PyErr Rat) (D : Decoder) (m extra : Bytes) (d : Val)
    (h : (decodeWith (D.prog f) m d).1 ≠ .error .structError) :
    decodeWith (D.prog f) (m ++ extra) d = decodeWith (D.prog f) m d := by
  unfold decodeWith at h ⊢
  rcases run_mono (D.prog f) m extra 0 d with h1 | h1
  · simp [h1, Except.map] at h
  · rw [h1]

/-! ## C58: frame -/

end SL

/-- The top-level branches each kind of message is about (as documented). -/
def Spec.branches : SL.Decoder → List String
  | .status => ["controller", "body", "circuit"]
  | .config => ["controller", "circuit", "pump"]
  | .chemistry => ["intellichem"]
  | .scg => ["scg"]
  | .pump _ => ["pump"]
  | .colorUpdate => ["controller"]
  | .version => ["adapter"]
  | .dateTime _ => ["controller"]
  | .equipment => ["equipment"]

namespace SL
open Spec
open Prog (rd rdString rdArray rdTime rdMsgString offset store setdefault lookup throw loop forRange)

theorem profile_branches (D : Decoder) : ∀ s, s ∈ D.profile.top ↔ s ∈ branches D := by
  intro s
  cases D <;> simp [Decoder.profile, branches] <;> grind

/-- C58: whatever the bytes and whether or not it fails, a decoder leaves every other top-level branch exactly
as it was. -/
theorem C58_frame (f : String → Except PyErr Rat) (D : Decoder) (m : Bytes) (d : Val) (k : Key)
    (hk : ∀ s ∈ branches D, k ≠ .s s) :
    Val.look [k] (decodeWith (D.prog f) m d).2 = Val.look [k] d := by
  unfold decodeWith
  exact run_frame (fits_within (D.fits f)) m 0 d k (fun s hs => hk s ((profile_branches D s).1 hs))

/-- C58, for everything below the branch. -/
theorem C58_frame_below (f : String → Except PyErr Rat) (D : Decoder) (m : Bytes) (d : Val) (k : Key) (p : Path)
    (hk : ∀ s ∈ branches D, k ≠ .s s) :
    Val.look (k :: p) (decodeWith (D.prog f) m d).2 = Val.look (k :: p) d := by
  have := C58_frame f D m d k hk
  rw [show k :: p = [k] ++ p from rfl, look_append, look_append, this]

/-! ## C60: truncation -/

theorem truncated (f : String → Except PyErr Rat) (D : Decoder) (hD : D.profile.msgs = false)
    (hA : D.profile.arrays = false) (m : Bytes) (d : Val) (hd : Sound d) {o : Nat} {r : Bytes} {ws : List W}
    (ht : trace (fun g => Val.look g d) (D.prog f) 0 m = (.ok ((), o, r), ws)) (n : Nat) (hn : n < o) :
    (decodeWith (D.prog f) (m.take n) d).1 = .error .structError := by
  have hr := decode_trace f D hD m hd
  rw [ht] at hr
  have h1 : ((D.prog f).run (m.take n ++ m.drop n) 0 d).1 = .ok ((), o) := by
    rw [List.take_append_drop, hr]; rfl
  have := run_truncated (fits_noArr hA (D.fits f)) (m.take n) (m.drop n) d h1
    (by rw [List.length_take]; omega)
  unfold decodeWith
  simp only [this]; rfl

/-- C60, chlorinator: every proper prefix is rejected with `struct.error`. -/
theorem C60_scg (f : String → Except PyErr Rat) (m : Scg) (d : Val) (hd : Reachable f d) (n : Nat)
    (hn : n < m.enc.length) : (decodeWith decodeScg (m.enc.take n) d).1 = .error .structError := by
  obtain ⟨ws, hw, -⟩ := trace_scg (fun g => Val.look g d) m []
  rw [List.append_nil] at hw
  exact truncated f .scg rfl rfl m.enc d (reachable_sound hd) hw n hn

/-- C60, chemistry: every proper prefix is rejected with `struct.error`. -/
theorem C60_chemistry (f : String → Except PyErr Rat) (m : Chem) (d : Val) (hd : Reachable f d) (n : Nat)
    (hn : n < m.enc.length) : (decodeWith decodeChemistry (m.enc.take n) d).1 = .error .structError := by
  obtain ⟨ws, hw, -⟩ := trace_chem d m []
  rw [List.append_nil] at hw
  exact truncated f .chemistry rfl rfl m.enc d (reachable_sound hd) hw n hn

/-! ## C56: colour update -/

theorem trace_colorUpdate (env : Path → Option Val) (m : ColorUpdate) (t : Bytes) :
    ∃ o ws, trace env decodeColorUpdate 0 (m.enc ++ t) = (.ok ((), o, t), ws) ∧
      ∀ e ∈ m.readings, hit e.1 ws.reverse = some e.2 := by
  simp only [decodeColorUpdate, ColorUpdate.enc, List.flatten_cons, List.flatten_nil, List.append_nil, List.append_assoc,
    tr_setdefault, tr_I, tr_str, tr_store, tr_store', logged_ok]
  refine ⟨_, _, rfl, ?_⟩
  simp only [ColorUpdate.readings, List.forall_mem_cons]
  repeat (first | exact List.forall_mem_nil _ | refine ⟨rfl, ?_⟩)

/-- C56: decoding a colour-lights update makes its fields available. -/
theorem C56_color_update (f : String → Except PyErr Rat) (m : ColorUpdate) (t : Bytes) (d : Val) (hd : Reachable f d) :
    (decodeWith decodeColorUpdate (m.enc ++ t) d).1 = .ok () ∧
    ∀ e ∈ m.readings, Val.look e.1 (decodeWith decodeColorUpdate (m.enc ++ t) d).2 = some e.2 := by
  obtain ⟨o, ws, hw, hh⟩ := trace_colorUpdate (fun g => Val.look g d) m t
  exact decode_hits f .colorUpdate rfl _ d hd ⟨_, _, ws, hw, fun e he => look_of_hit' (hh e he) d⟩


/-! ## C56: date and time -/

theorem leap_yearLength (y : Nat) : yearLength y = 365 + (if isLeap y then 1 else 0) := by
  unfold yearLength isLeap
  by_cases h1 : y % 4 = 0 <;> by_cases h2 : y % 100 = 0 <;> by_cases h3 : y % 400 = 0 <;> simp [h1, h2, h3]

theorem monthLength_eq (y m : Nat) (h1 : 1 ≤ m) (h2 : m ≤ 12) : monthLength y m = daysInMonth y m := by
  have hl : (yearLength y = 366) ↔ isLeap y = true := by
    rw [leap_yearLength]; cases isLeap y <;> simp
  have : m = 1 ∨ m = 2 ∨ m = 3 ∨ m = 4 ∨ m = 5 ∨ m = 6 ∨ m = 7 ∨ m = 8 ∨ m = 9 ∨ m = 10 ∨ m = 11 ∨ m = 12 := by omega
  rcases this with h | h | h | h | h | h | h | h | h | h | h | h <;> subst h <;> simp [monthLength, daysInMonth, hl]

theorem daysToYear_eq (y : Nat) (h : 1 ≤ y) : daysToYear y = daysBeforeYear y := by
  obtain ⟨z, rfl⟩ : ∃ z, y = z + 1 := ⟨y - 1, by omega⟩
  induction z with
  | zero => rfl
  | succ z ih =>
    rw [daysBeforeYear_succ (by omega), ← ih (by omega)]
    simp only [daysToYear, Nat.add_sub_cancel, List.range_succ, List.map_append, List.map_cons, List.map_nil,
      List.sum_append, List.sum_cons, List.sum_nil, leap_yearLength]
    omega

theorem daysToMonth_eq (y m : Nat) (h1 : 1 ≤ m) (h2 : m ≤ 12) : daysToMonth y m = daysBeforeMonth y m := by
  obtain ⟨z, rfl⟩ : ∃ z, m = z + 1 := ⟨m - 1, by omega⟩
  clear h1
  induction z with
  | zero => rfl
  | succ z ih =>
    rw [daysBeforeMonth, if_neg (by omega), ← ih (by omega), ← monthLength_eq _ _ (by omega) (by omega)]
    simp [daysToMonth, List.range_succ]

/-- The message's calendar fields. -/
def _root_.Spec.DateTimeMsg.dt (m : DateTimeMsg) : DateTime :=
  ⟨m.year, m.month, m.day, m.hour, m.minute, m.second, m.milli * 1000⟩

theorem dt_valid (m : DateTimeMsg) : m.dt.valid := by
  have h1 := m.yearOk; have h2 := m.monthOk; have h3 := m.dayOk
  rw [monthLength_eq _ _ h2.1 h2.2] at h3
  refine ⟨h1.1, h1.2, h2.1, h2.2, h3.1, h3.2, m.hourOk, m.minuteOk, m.secondOk, ?_⟩
  have := m.milliOk
  simp only [DateTimeMsg.dt]; omega

theorem dt_timestamp (m : DateTimeMsg) : m.dt.timestamp = intDiv (m.unixMillis * 1000) 1000000 := by
  unfold DateTime.timestamp DateTimeMsg.unixMillis DateTime.ordinal
  have h1 := m.yearOk; have h2 := m.monthOk; have h3 := m.dayOk
  rw [daysToYear_eq _ h1.1, daysToMonth_eq _ _ h2.1 h2.2]
  simp only [DateTimeMsg.dt]
  have : ∀ a b : Int, a = b → intDiv a 1000000 = intDiv b 1000000 := fun a b h => by rw [h]
  apply this
  generalize daysBeforeYear m.year = a
  generalize daysBeforeMonth m.year m.month = b
  omega

theorem tr_time {α : Type} (env : Path → Option Val) (o : Nat) (r : Bytes) (m : DateTimeMsg) (k : DateTime → Prog α) :
    trace env (rdTime >>= k) o (u16 m.year ++ (u16 m.month ++ (u16 m.dayOfWeek.toNat ++ (u16 m.day ++ (u16 m.hour ++
      (u16 m.minute ++ (u16 m.second ++ (u16 m.milli ++ r)))))))) = trace env (k m.dt) (o + 16) r := by
  have hv := dt_valid m
  have e : u16 m.year ++ (u16 m.month ++ (u16 m.dayOfWeek.toNat ++ (u16 m.day ++ (u16 m.hour ++
      (u16 m.minute ++ (u16 m.second ++ (u16 m.milli ++ r))))))) =
      [] ++ timeBlock m.year m.month m.dayOfWeek.toNat m.day m.hour m.minute m.second m.milli ++ r := by
    simp [timeBlock, List.append_assoc]
  have hl : (timeBlock m.year m.month m.dayOfWeek.toNat m.day m.hour m.minute m.second m.milli).length = 16 := rfl
  have h1 := m.yearOk; have h2 := m.monthOk; have h3 := m.dayOk; have h4 := m.hourOk; have h5 := m.minuteOk
  have h6 := m.secondOk; have h7 := m.milliOk
  have h8 : m.day ≤ 31 := by
    rw [monthLength_eq _ _ h2.1 h2.2] at h3
    exact Nat.le_trans h3.2 (daysInMonth_le _ _)
  have hg := C06_get_time [] _ r hl
  rw [decodeMessageTime, if_pos hl, timeOfBlock_timeBlock (by omega) (by omega) (by omega)
    (by omega) (by omega) (by omega) (by omega), mkDateTime, if_pos (show DateTime.valid ⟨m.year, m.month, m.day, m.hour, m.minute, m.second, m.milli * 1000⟩ from hv)] at hg
  show trace env (.time k) o _ = _
  rw [e]
  simp only [trace, List.length_nil] at hg ⊢
  rw [hg]
  simp only [Except.map, onRead, List.nil_append, Nat.zero_add]
  rw [List.drop_left' hl]
  rfl

theorem trace_dateTime (env : Path → Option Val) (m : DateTimeMsg) (now : Rat) (t : Bytes) :
    ∃ ws, trace env (decodeDateTime now) 0 (m.enc ++ t) = (.ok ((), 20, t), ws) ∧
      ∀ e ∈ m.readings now, hit e.1 ws.reverse = some e.2 := by
  simp only [decodeDateTime, DateTimeMsg.enc, List.flatten_cons, List.flatten_nil, List.append_nil, List.append_assoc,
    tr_setdefault, tr_time, tr_I, tr_store, tr_store', logged_ok, dt_timestamp]
  refine ⟨_, rfl, ?_⟩
  simp only [DateTimeMsg.readings, List.forall_mem_cons]
  repeat (first | exact List.forall_mem_nil _ | refine ⟨rfl, ?_⟩)

/-- C56: decoding a date/time message makes the controller's clock (seconds since 1970, as the nearest double),
the host's clock and the daylight saving flag available. -/
theorem C56_date_time (f : String → Except PyErr Rat) (m : DateTimeMsg) (now : Rat) (t : Bytes) (d : Val)
    (hd : Reachable f d) :
    (decodeWith (decodeDateTime now) (m.enc ++ t) d).1 = .ok () ∧
    ∀ e ∈ m.readings now, Val.look e.1 (decodeWith (decodeDateTime now) (m.enc ++ t) d).2 = some e.2 := by
  obtain ⟨ws, hw, hh⟩ := trace_dateTime (fun g => Val.look g d) m now t
  exact decode_hits f (.dateTime now) rfl _ d hd ⟨_, _, ws, hw, fun e he => look_of_hit' (hh e he) d⟩

/-- A concrete date/time message: 29 February 2024, 12:34:56.789, a Thursday, with daylight saving. -/
def sampleDateTime : DateTimeMsg :=
  { year := 2024, month := 2, dayOfWeek := 4, day := 29, hour := 12, minute := 34, second := 56, milli := 789,
    yearOk := by omega, monthOk := by omega, dayOk := by decide, hourOk := by omega, minuteOk := by omega,
    secondOk := by omega, milliOk := by omega, autoDst := 1 }

example : sampleDateTime.enc = [0xE8, 7, 2, 0, 4, 0, 29, 0, 12, 0, 34, 0, 56, 0, 21, 3, 1, 0, 0, 0] := by decide

/-- C60 for the date/time message as well. -/
theorem C60_date_time (f : String → Except PyErr Rat) (m : DateTimeMsg) (now : Rat) (d : Val) (hd : Reachable f d)
    (n : Nat) (hn : n < m.enc.length) :
    (decodeWith (decodeDateTime now) (m.enc.take n) d).1 = .error .structError := by
  obtain ⟨ws, hw, -⟩ := trace_dateTime (fun g => Val.look g d) m now []
  rw [List.append_nil] at hw
  exact truncated f (.dateTime now) rfl rfl m.enc d (reachable_sound hd) hw n hn

/-! ## C56: version -/

theorem splitChars_word (w rest cur : List Char) (hw : ∀ c ∈ w, pyIsSpace c = false) :
    splitChars (w ++ rest) cur = splitChars rest (cur ++ w) := by
  induction w generalizing cur with
  | nil => simp
  | cons c w ih =>
    have hc := hw c List.mem_cons_self
    simp only [List.cons_append, splitChars, hc, Bool.false_eq_true, if_false]
    rw [ih _ (fun c h => hw c (List.mem_cons_of_mem _ h))]
    simp

theorem splitChars_space (rest cur : List Char) (h : cur ≠ []) :
    splitChars (' ' :: rest) cur = cur :: splitChars rest [] := by
  have : pyIsSpace ' ' = true := by decide
  cases cur with
  | nil => exact absurd rfl h
  | cons a b => simp [splitChars, this]

theorem splitChars_end (w rest : List Char) (hne : w ≠ []) (hrest : rest = [] ∨ ∃ c r, rest = c :: r ∧ pyIsSpace c = true) :
    ∃ more, splitChars rest w = w :: more := by
  rcases hrest with rfl | ⟨c, r, rfl, hc⟩
  · cases w with
    | nil => exact absurd rfl hne
    | cons a b => exact ⟨[], rfl⟩
  · cases w with
    | nil => exact absurd rfl hne
    | cons a b => exact ⟨splitChars r [], by simp [splitChars, hc]⟩

/-- A word: not empty, no white space. -/
def _root_.Spec.IsWord (w : String) : Prop := w ≠ "" ∧ ∀ c ∈ w.toList, pyIsSpace c = false

theorem word_ne {w : String} (h : IsWord w) : w.toList ≠ [] := by
  intro he
  apply h.1
  rw [← String.ofList_toList (s := w), he]

theorem pySplit_four (a b c e : String) (rest : List Char) (ha : IsWord a) (hb : IsWord b) (hc : IsWord c) (he : IsWord e)
    (hrest : rest = [] ∨ ∃ c r, rest = c :: r ∧ pyIsSpace c = true) :
    ∃ more, pySplit (String.ofList (a.toList ++ (' ' :: (b.toList ++ (' ' :: (c.toList ++ (' ' :: (e.toList ++ rest)))))))) =
      a :: b :: c :: e :: more := by
  obtain ⟨more, hm⟩ := splitChars_end e.toList rest (word_ne he) hrest
  refine ⟨more.map String.ofList, ?_⟩
  unfold pySplit
  rw [String.toList_ofList, splitChars_word _ _ _ ha.2, List.nil_append, splitChars_space _ _ (word_ne ha),
    splitChars_word _ _ _ hb.2, List.nil_append, splitChars_space _ _ (word_ne hb),
    splitChars_word _ _ _ hc.2, List.nil_append, splitChars_space _ _ (word_ne hc),
    splitChars_word _ _ _ he.2, List.nil_append, hm]
  simp only [List.map_cons, String.ofList_toList]

/-- C56: decoding a version message holding the text "<a> <major> <c> <minor> ..." (for instance
"POOL: 5.2 Build 736.0 Rel") makes the text and the two numbers available, for any conversion `f` of texts to
numbers that accepts the two words. -/
theorem C56_version (f : String → Except PyErr Rat) (a b c e : String) (rest : List Char) (major minor : Rat)
    (ha : IsWord a) (hb : IsWord b) (hc : IsWord c) (he : IsWord e)
    (hrest : rest = [] ∨ ∃ c r, rest = c :: r ∧ pyIsSpace c = true)
    (hmajor : f b = .ok major) (hminor : f e = .ok minor)
    (s : String) (hs : s.toList = a.toList ++ (' ' :: (b.toList ++ (' ' :: (c.toList ++ (' ' :: (e.toList ++ rest)))))))
    (hlen : s.toUTF8.size < 2147483648) (t : Bytes) (d : Val) (hd : Reachable f d) :
    (decodeWith (decodeVersion f) (block s.toUTF8.data.toList ++ t) d).1 = .ok () ∧
    ∀ r ∈ [(([.s "adapter", .s "firmware", .s "value"] : Path), Val.str s),
        ([.s "adapter", .s "firmware", .s "major"], .flt major), ([.s "adapter", .s "firmware", .s "minor"], .flt minor)],
      Val.look r.1 (decodeWith (decodeVersion f) (block s.toUTF8.data.toList ++ t) d).2 = some r.2 := by
  have hlen' : (textBytes false s.toList).length < 2 ^ 31 := by
    rw [C04_utf8_standard, Array.length_toList]; exact hlen
  have hdec : decodeMessageString (block s.toUTF8.data.toList ++ t) = .ok s := by
    obtain ⟨bs, h1, -, h3⟩ := C04_text_roundtrip s false hlen'
    have h2 := C04_text_layout s false hlen'
    rw [h1, Except.ok.injEq] at h2
    rw [C04_utf8_standard] at h2
    rw [← h3 t, h2]; rfl
  obtain ⟨more, hm⟩ := pySplit_four a b c e rest ha hb hc he hrest
  rw [← hs, String.ofList_toList] at hm
  have hS := reachable_sound hd
  have hp := present_putNew hS.shaped (E := [[]]) (p := [.s "adapter"]) (x := .dict []) hS.present
    (okDef_empty rfl)
  obtain ⟨-, kv', hkv⟩ := hp [.s "adapter"] (by simp [show isNode [Key.s "adapter"] = true from rfl])
  obtain ⟨kv, hroot⟩ := hS.root
  have hrun : decodeWith (decodeVersion f) (block s.toUTF8.data.toList ++ t) d =
      (.ok (), Val.put [.s "adapter", .s "firmware"]
        (entry "Protocol Adapter Firmware" (.str s) [(.s "major", .flt major), (.s "minor", .flt minor)])
        (Val.putNew [.s "adapter"] (.dict []) d)) := by
    subst hroot
    unfold decodeWith decodeVersion
    show (_, _) = _
    simp only [setdefault, rdMsgString, bind, Prog.bind, Prog.run, hdec, hm, floatPart, List.getElem?_cons_succ,
      List.getElem?_cons_zero, hmajor, hminor, pure, store, List.dropLast, Val.look, hkv, Except.map]
  rw [hrun]
  refine ⟨rfl, ?_⟩
  simp only [List.forall_mem_cons]
  refine ⟨look_put_below [.s "adapter", .s "firmware"] [.s "value"] _ _,
    look_put_below [.s "adapter", .s "firmware"] [.s "major"] _ _,
    look_put_below [.s "adapter", .s "firmware"] [.s "minor"] _ _, ?_⟩
  exact List.forall_mem_nil _

/-- The hypotheses on the words are met by a real firmware text. -/
example : IsWord "POOL:" ∧ IsWord "5.2" ∧ IsWord "Build" ∧ IsWord "736.0" ∧
    "POOL: 5.2 Build 736.0 Rel".toList = "POOL:".toList ++ (' ' :: ("5.2".toList ++ (' ' :: ("Build".toList ++
      (' ' :: ("736.0".toList ++ " Rel".toList)))))) := by
  refine ⟨⟨by decide, by decide⟩, ⟨by decide, by decide⟩, ⟨by decide, by decide⟩, ⟨by decide, by decide⟩, by decide⟩

end SL
