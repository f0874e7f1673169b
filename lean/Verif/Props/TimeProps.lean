import Verif.Lemmas.Wire
import Verif.Model.Time
/-!
# C06: date/time codec
-/
namespace SL
open Spec

/-- The documented 16-byte date/time block: year, month, day of week, day, hour, minute, second,
millisecond, 16 bits each. -/
def timeBlock (year month dow day hour minute second ms : Nat) : Bytes :=
  u16 year ++ u16 month ++ u16 dow ++ u16 day ++ u16 hour ++ u16 minute ++ u16 second ++ u16 ms

theorem daysInMonth_le (y m : Nat) : daysInMonth y m ≤ 31 := by
  unfold daysInMonth; split <;> first | omega | (split <;> omega)

theorem weekday_lt (d : DateTime) : d.weekday < 7 := by unfold DateTime.weekday; omega

/-- C06 (encoding): every valid datetime is encoded as its block, with day-of-week Monday=0, seconds
forced to 0 and microseconds cut to milliseconds. -/
theorem C06_encode_time (t : DateTime) (h : t.valid) :
    encodeMessageTime t =
      .ok (timeBlock t.year t.month t.weekday t.day t.hour t.minute 0 (t.microsecond / 1000)) := by
  obtain ⟨h1, h2, h3, h4, h5, h6, h7, h8, h9, h10⟩ := h
  have := daysInMonth_le t.year t.month
  have := weekday_lt t
  unfold encodeMessageTime pack8H timeBlock
  rw [packU_ok_nat (by omega), Except_bind_ok, packU_ok_nat (by omega), Except_bind_ok,
    packU_ok_nat (by omega), Except_bind_ok, packU_ok_nat (by omega), Except_bind_ok,
    packU_ok_nat (by omega), Except_bind_ok, packU_ok_nat (by omega), Except_bind_ok,
    packU_ok_nat (by omega), Except_bind_ok, packU_ok_nat (by omega), Except_bind_ok]
  simp only [u16_eq]; rfl

theorem timeOfBlock_timeBlock {y mo dw d h mi s ms : Nat} (h1 : y < 65536) (h2 : mo < 65536)
    (h4 : d < 65536) (h5 : h < 65536) (h6 : mi < 65536) (h7 : s < 65536) (h8 : ms < 65536) :
    timeOfBlock (timeBlock y mo dw d h mi s ms) = mkDateTime ⟨y, mo, d, h, mi, s, ms * 1000⟩ := by
  unfold timeOfBlock field16 timeBlock
  have e0 : leVal ((u16 y ++ u16 mo ++ u16 dw ++ u16 d ++ u16 h ++ u16 mi ++ u16 s ++ u16 ms).drop (2*0) |>.take 2) = y := leVal_u16 h1
  have e1 : leVal ((u16 y ++ u16 mo ++ u16 dw ++ u16 d ++ u16 h ++ u16 mi ++ u16 s ++ u16 ms).drop (2*1) |>.take 2) = mo := leVal_u16 h2
  have e3 : leVal ((u16 y ++ u16 mo ++ u16 dw ++ u16 d ++ u16 h ++ u16 mi ++ u16 s ++ u16 ms).drop (2*3) |>.take 2) = d := leVal_u16 h4
  have e4 : leVal ((u16 y ++ u16 mo ++ u16 dw ++ u16 d ++ u16 h ++ u16 mi ++ u16 s ++ u16 ms).drop (2*4) |>.take 2) = h := leVal_u16 h5
  have e5 : leVal ((u16 y ++ u16 mo ++ u16 dw ++ u16 d ++ u16 h ++ u16 mi ++ u16 s ++ u16 ms).drop (2*5) |>.take 2) = mi := leVal_u16 h6
  have e6 : leVal ((u16 y ++ u16 mo ++ u16 dw ++ u16 d ++ u16 h ++ u16 mi ++ u16 s ++ u16 ms).drop (2*6) |>.take 2) = s := leVal_u16 h7
  have e7 : leVal ((u16 y ++ u16 mo ++ u16 dw ++ u16 d ++ u16 h ++ u16 mi ++ u16 s ++ u16 ms).drop (2*7) |>.take 2) = ms := leVal_u16 h8
  rw [e0, e1, e3, e4, e5, e6, e7]

/-- C06 (round trip): decoding an encoded datetime gives the same date, hour and minute, second 0 and
the microseconds cut to whole milliseconds. -/
theorem C06_time_roundtrip (t : DateTime) (h : t.valid) :
    ∃ bs, encodeMessageTime t = .ok bs ∧ bs.length = 16 ∧
      decodeMessageTime bs =
        .ok { t with second := 0, microsecond := t.microsecond / 1000 * 1000 } := by
  refine ⟨_, C06_encode_time t h, rfl, ?_⟩
  obtain ⟨h1, h2, h3, h4, h5, h6, h7, h8, h9, h10⟩ := h
  have := daysInMonth_le t.year t.month
  unfold decodeMessageTime
  rw [if_pos (by rfl), timeOfBlock_timeBlock (by omega) (by omega) (by omega) (by omega) (by omega)
    (by omega) (by omega)]
  unfold mkDateTime
  rw [if_pos]
  exact ⟨h1, h2, h3, h4, h5, h6, h7, h8, by simp, by simp only; omega⟩

/-- C06 (decoding, all inputs): a 16-byte block decodes exactly when its fields are a calendar date
and time (the day-of-week field is ignored), otherwise `ValueError`; other lengths are
`struct.error`. -/
theorem C06_decode_time (y mo dw d h mi s ms : Nat) (h1 : y < 65536) (h2 : mo < 65536)
    (_h3 : dw < 65536) (h4 : d < 65536) (h5 : h < 65536) (h6 : mi < 65536) (h7 : s < 65536)
    (h8 : ms < 65536) :
    decodeMessageTime (timeBlock y mo dw d h mi s ms) =
      if 1 ≤ y ∧ y ≤ 9999 ∧ 1 ≤ mo ∧ mo ≤ 12 ∧ 1 ≤ d ∧ d ≤ daysInMonth y mo ∧ h < 24 ∧ mi < 60 ∧
          s < 60 ∧ ms < 1000 then
        .ok ⟨y, mo, d, h, mi, s, ms * 1000⟩
      else .error .valueError := by
  unfold decodeMessageTime
  rw [if_pos (by rfl), timeOfBlock_timeBlock h1 h2 h4 h5 h6 h7 h8]
  unfold mkDateTime
  by_cases hv : (DateTime.mk y mo d h mi s (ms * 1000)).valid
  · rw [if_pos hv, if_pos]
    obtain ⟨a1, a2, a3, a4, a5, a6, a7, a8, a9, a10⟩ := hv
    simp only at *
    refine ⟨a1, a2, a3, a4, a5, a6, ?_, ?_, ?_, ?_⟩ <;> omega
  · rw [if_neg hv, if_neg]
    rintro ⟨a1, a2, a3, a4, a5, a6, a7, a8, a9, a10⟩
    apply hv
    refine ⟨a1, a2, a3, a4, a5, a6, ?_, ?_, ?_, ?_⟩ <;> simp only <;> omega

theorem C06_decode_time_length (bs : Bytes) (h : bs.length ≠ 16) :
    decodeMessageTime bs = .error .structError := by
  unfold decodeMessageTime; rw [if_neg h]

/-- C06: every 16-byte string is the block of some eight fields, so `C06_decode_time` covers all. -/
theorem C06_blocks_cover (bs : Bytes) (h : bs.length = 16) :
    ∃ y mo dw d h mi s ms, y < 65536 ∧ mo < 65536 ∧ dw < 65536 ∧ d < 65536 ∧ h < 65536 ∧ mi < 65536 ∧
      s < 65536 ∧ ms < 65536 ∧ bs = timeBlock y mo dw d h mi s ms := by
  match bs, h with
  | [a0, a1, a2, a3, a4, a5, a6, a7, a8, a9, a10, a11, a12, a13, a14, a15], _ =>
    have key : ∀ a b : UInt8, leVal [a, b] < 65536 ∧ u16 (leVal [a, b]) = [a, b] := by
      intro a b
      refine ⟨by have := leVal_lt [a, b]; simpa using this, ?_⟩
      rw [u16_eq]; exact leBytes_leVal [a, b]
    refine ⟨_, _, _, _, _, _, _, _, (key a0 a1).1, (key a2 a3).1, (key a4 a5).1, (key a6 a7).1,
      (key a8 a9).1, (key a10 a11).1, (key a12 a13).1, (key a14 a15).1, ?_⟩
    simp only [timeBlock, (key _ _).2]; rfl

/-- C06 (in place): `getTime` reads the block at an offset and returns the offset past it. -/
theorem C06_get_time (pre blk post : Bytes) (h : blk.length = 16) :
    getTime (pre ++ blk ++ post) pre.length =
      (decodeMessageTime blk).map (fun t => (t, pre.length + 16)) := by
  unfold getTime decodeMessageTime
  rw [List.append_assoc, unpackRaw_append pre blk post h rfl, Except_bind_ok, if_pos h]
  cases timeOfBlock blk <;> rfl

/-- The day after a date. -/
def nextDay (t : DateTime) : DateTime :=
  if t.day < daysInMonth t.year t.month then { t with day := t.day + 1 }
  else if t.month < 12 then { t with month := t.month + 1, day := 1 }
  else { t with year := t.year + 1, month := 1, day := 1 }

theorem succ_div_ite (z k : Nat) :
    (z + 1) / k = z / k + if (z + 1) % k = 0 then 1 else 0 := by
  rw [Nat.succ_div]
  by_cases h : k ∣ z + 1
  · rw [if_pos h, if_pos (Nat.mod_eq_zero_of_dvd h)]
  · rw [if_neg h, if_neg (fun hm => h (Nat.dvd_of_mod_eq_zero hm))]

theorem daysBeforeYear_succ {y : Nat} (hy : 1 ≤ y) :
    daysBeforeYear (y + 1) = daysBeforeYear y + 365 + (if isLeap y then 1 else 0) := by
  obtain ⟨z, rfl⟩ : ∃ z, y = z + 1 := ⟨y - 1, by omega⟩
  unfold daysBeforeYear isLeap
  simp only [Nat.add_sub_cancel]
  have h1 : z / 100 ≤ z / 4 := Nat.div_le_div_left (by omega) (by omega)
  rw [succ_div_ite z 4, succ_div_ite z 100, succ_div_ite z 400]
  generalize z / 4 = a at *
  generalize z / 100 = b at *
  generalize z / 400 = c at *
  have hd : (z + 1) % 100 = 0 → (z + 1) % 4 = 0 := by omega
  have hd2 : (z + 1) % 400 = 0 → (z + 1) % 100 = 0 := by omega
  by_cases p : (z + 1) % 4 = 0
  · by_cases q : (z + 1) % 100 = 0
    · by_cases r : (z + 1) % 400 = 0
      · simp only [p, q, r]; simp; omega
      · simp [p, q, r]; omega
    · have r : (z + 1) % 400 ≠ 0 := fun hr => q (hd2 hr)
      simp [p, q, r]; omega
  · have q : (z + 1) % 100 ≠ 0 := fun hr => p (hd hr)
    have r : (z + 1) % 400 ≠ 0 := fun hr => q (hd2 hr)
    simp [p, q, r]; omega

theorem ordinal_nextDay (t : DateTime) (h : t.valid) : (nextDay t).ordinal = t.ordinal + 1 := by
  obtain ⟨h1, h2, h3, h4, h5, h6, -⟩ := h
  unfold nextDay
  split
  · simp only [DateTime.ordinal]; omega
  · split
    · rename_i hd hm
      simp only [DateTime.ordinal]
      have : daysBeforeMonth t.year (t.month + 1) = daysBeforeMonth t.year t.month + daysInMonth t.year t.month := by
        rw [daysBeforeMonth]; rw [if_neg (by omega)]
      omega
    · rename_i hd hm
      have hm12 : t.month = 12 := by omega
      have e1 : daysBeforeMonth (t.year + 1) 1 = 0 := rfl
      have e2 : daysBeforeMonth t.year 12 = 334 + (if isLeap t.year then 1 else 0) := by
        simp only [daysBeforeMonth, daysInMonth]
        cases isLeap t.year <;> rfl
      have e3 : daysInMonth t.year 12 = 31 := rfl
      simp only [DateTime.ordinal, hm12, e1, e2]
      rw [hm12, e3] at hd h6
      have e4 : daysBeforeYear (t.year + 1) = daysBeforeYear t.year + 365 + (if isLeap t.year then 1 else 0) := by
        exact daysBeforeYear_succ h1
      omega

/-- C06 (day of week): the encoded day of week is 0 on Monday, 1 January of year 1 and advances by
one (mod 7) from each valid day to the next, which determines it for every date. -/
theorem C06_weekday (t : DateTime) (h : t.valid) :
    (nextDay t).weekday = (t.weekday + 1) % 7 := by
  unfold DateTime.weekday
  rw [ordinal_nextDay t h]; omega

theorem C06_weekday_anchor : (DateTime.mk 1 1 1 0 0 0 0).weekday = 0 := by decide

/-- 1 May 2024 was a Wednesday. -/
example : (DateTime.mk 2024 5 1 12 30 15 123456).weekday = 2 := by decide
example : (DateTime.mk 2024 2 29 23 59 59 999999).valid ∧ ¬ (DateTime.mk 2023 2 29 0 0 0 0).valid := by decide
example : decodeMessageTime (timeBlock 2023 2 0 29 0 0 0 0) = .error .valueError := by decide

end SL
