import Verif.Model.Metadata
import Verif.Proofs.Std.Time
import Verif.Proofs.Std.TimeText
import Verif.Proofs.Std.Float
import Verif.Props.Std.Text
import Verif.Proofs.Std.FloatVal
import Verif.Props.Payload

/-! # C100 and C101: expiry times; numbers in unrecognised fields -/

namespace Tuf
open Tuf.Spec Tuf.Std Tuf.Sample

/-- C100: a time of the calendar is written as a text that is read as the same time. -/
theorem C100_reads_back {env : Env} {c : Civil} (h : ValidCivil c) : (std env).parseTime (timeOf c).text = some (timeOf c) := by
  show (parseCivil (formatTime c)).map timeOf = _
  rw [parse_format h]
  rfl

/-- C100: every text that is read as a time is read as a time of the calendar. -/
theorem C100_calendar {env : Env} {s : Str} {t : Time} (h : (std env).parseTime s = some t) : ∃ c, ValidCivil c ∧ t = timeOf c := by
  obtain ⟨c, h1, rfl⟩ := Option.map_eq_some_iff.1 (show (parseCivil s).map timeOf = some t from h)
  exact ⟨c, parseCivil_valid h1, rfl⟩

/-- C100: exactly the texts of times are read, each as the time it stands for. -/
theorem C100_read {env : Env} {s : Str} {t : Time} : (std env).parseTime s = some t ↔ ∃ c, TimeText s c ∧ t = timeOf c := by
  show (parseCivil s).map timeOf = some t ↔ _
  rw [Option.map_eq_some_iff]
  exact exists_congr fun c => and_congr parseCivil_iff eq_comm

/-- A case of `C100_read`: one digit for the hour, a comma, and an offset. -/
example : TimeText b!"2030-06-01T7:00:09,25-01:60" ⟨2030, 6, 1, 7, 0, 9, 250000000, -120⟩ := parseCivil_iff.1 (by decide +kernel)

/-- C100: with equal offsets, metadata is expired exactly if its expiry is earlier on the calendar and the clock. -/
theorem C100_expired {a b : Civil} (ha : ValidCivil a) (hb : ValidCivil b) (ho : a.offset = b.offset) : isExpired (timeOf a) (timeOf b) = true ↔ Earlier a b := by
  rw [← instant_lt_iff ha hb ho]
  exact decide_eq_true_iff

/-- C100: for times in UTC without fractions, expiry is the order of the texts. -/
theorem C100_text_order {a b : Civil} (ha : ValidCivil a) (hb : ValidCivil b) (hoa : a.offset = 0) (hob : b.offset = 0) (hna : a.nano = 0) (hnb : b.nano = 0) :
    isExpired (timeOf a) (timeOf b) = true ↔ (timeOf a).text < (timeOf b).text := by
  show _ ↔ formatTime a < formatTime b
  rw [text_lt_iff ha hb hoa hob hna hnb]
  exact decide_eq_true_iff

/-- C100: instants count the nanoseconds since January 1, 1970 UTC: the epoch is 0, a day later is 86400 seconds more, an hour, a minute, a second later as well, and a clock that is
`o` minutes ahead shows a later time. -/
theorem C100_instants : (timeOf ⟨1970, 1, 1, 0, 0, 0, 0, 0⟩).instant = 0 ∧
    (∀ a b, ValidCivil a → ValidCivil b → NextDay a b → a.hour = b.hour → a.minute = b.minute → a.second = b.second → a.nano = b.nano → a.offset = b.offset →
      (timeOf b).instant = (timeOf a).instant + 86400000000000) ∧
    ∀ (c : Civil) (h m s n : Nat) (o : Int), (timeOf { c with hour := c.hour + h, minute := c.minute + m, second := c.second + s, nano := c.nano + n, offset := c.offset + o }).instant =
      (timeOf c).instant + h * 3600000000000 + m * 60000000000 + s * 1000000000 + n - o * 60000000000 := by
  refine ⟨by decide, ?_, ?_⟩
  · intro a b ha hb hn h1 h2 h3 h4 h5
    have := dayNumber_next ha hb hn
    simp only [timeOf, instantOf, this, h1, h2, h3, h4, h5]
    omega
  · intro c h m s n o
    simp only [timeOf, instantOf]
    omega

/-- A case of C100: a leap second's day, the end of a month. -/
example : isExpired (timeOf ⟨2024, 2, 29, 23, 59, 59, 0, 0⟩) (timeOf ⟨2024, 3, 1, 0, 0, 0, 0, 0⟩) = true :=
  (C100_text_order ⟨by decide, by decide, by decide, by decide, by decide, by decide, by decide, by decide⟩
    ⟨by decide, by decide, by decide, by decide, by decide, by decide, by decide, by decide⟩ rfl rfl rfl rfl).2 (by decide)

/-! ## Numbers -/

/-- C101 for integers below 2^53: they are kept. -/
theorem C101_kept_partial {env : Env} {n : Int} (h1 : -(2 ^ 53) < n) (h2 : n < 2 ^ 53) : (std env).anyNum (.inl n) = some (.inl n) := anyNumber_exact h1 h2

/-- C101: a number that was read and written once is kept from then on. -/
theorem C101_stable_partial {env : Env} {l l' : NumLit} (h : (std env).anyNum l = some l') : (std env).anyNum l' = some l' := anyNumber_idem h

/-- C101 for numbers of at most 15 digits, with or without a point or an exponent: they are written as a literal for the same number. -/
theorem C101_decimals_partial {env : Env} {l : NumLit} {v : Rat} (h : Denotes l v) (hs : Short v) : ∃ l', (std env).anyNum l = some l' ∧ Denotes l' v := anyNumber_short h hs

/-- C101 for all numbers that are not tiny: they are changed by less than one part in 2^51. -/
theorem C101_close_partial {env : Env} {l l' : NumLit} {v : Rat} (h : Denotes l v) (hv : (2 : Rat) ^ (-1022 : Int) ≤ v ∨ v ≤ -(2 : Rat) ^ (-1022 : Int)) (ha : (std env).anyNum l = some l') :
    ∃ v', Denotes l' v' ∧ (2 ^ 51 : Nat) * (v' - v) ≤ (if v < 0 then -v else v) ∧ (2 ^ 51 : Nat) * (v - v') ≤ (if v < 0 then -v else v) := anyNumber_close h hv ha

/-- `-12.50e-3` stands for -0.0125, which has 3 digits. -/
example : Denotes (.inr b!"-12.50e-3") (-(1250 * 10 ^ (-5 : Int))) ∧ Short (-(1250 * 10 ^ (-5 : Int))) ∧ (std env0).anyNum (.inr b!"-12.50e-3") = some (.inr b!"-0.0125") := by
  refine ⟨?_, ⟨1250, -5, by decide, by decide, by decide, .inr rfl⟩, by decide +kernel⟩
  have h1 : IntDigits b!"12" := ⟨⟨by decide, by decide⟩, by decide⟩
  have h2 : PointText b!".50" b!"50" := .some ⟨by decide, by decide⟩
  have h3 : ExpText b!"e-3" (-3) := .minus (ds := b!"3") (.inl rfl) ⟨by decide, by decide⟩
  exact .neg (.mk h1 h2 h3 (.inl (by decide)))

/-- Large numbers change: 17 digits that are not those of a float64. -/
example : (std env0).anyNum (.inr b!"0.12345678901234567") = some (.inr b!"0.12345678901234566") := by decide +kernel

namespace Sample

/-- A timestamp file with 2^53 + 1 in an unrecognised field. -/
def serialText : Bytes := b!"{\"signatures\":[],\"signed\":{\"_type\":\"timestamp\",\"expires\":\"2030-06-01T12:00:00Z\",\"meta\":{\"snapshot.json\":{\"version\":1}},\"serial\":9007199254740993,\"spec_version\":\"1\",\"version\":7}}"

end Sample

/-- C101 is false: the document that is written, and the payload over which its signatures are checked, have another number than the file. -/
theorem C101_false : (fromBytes (T := TimestampType) (std env0) serialText >>= fun m => payload m.signed) =
      .ok b!"{\"_type\":\"timestamp\",\"expires\":\"2030-06-01T12:00:00Z\",\"meta\":{\"snapshot.json\":{\"version\":1}},\"serial\":9007199254740992,\"spec_version\":\"1\",\"version\":7}" ∧
    (fromBytes (T := TimestampType) (std env0) serialText >>= fun m => toBytes (std env0) m false) =
      .ok b!"{\"signatures\":[],\"signed\":{\"_type\":\"timestamp\",\"expires\":\"2030-06-01T12:00:00Z\",\"meta\":{\"snapshot.json\":{\"version\":1}},\"serial\":9007199254740992,\"spec_version\":\"1\",\"version\":7}}" := by
  decide +kernel

end Tuf
