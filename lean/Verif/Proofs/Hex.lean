import Verif.Model.GoLib

/-! Hexadecimal encoding. -/

namespace Tuf

/-- Values of hex digits, as a finite check over the 16 digits. -/
theorem hexVal_digitChar {d : Nat} (h : d < 16) : hexVal (digitChar d) = some d := by
  have : ∀ d : Fin 16, hexVal (digitChar d.val) = some d.val := by decide
  exact this ⟨d, h⟩

theorem hexDecode_hexEncode (b : Bytes) : hexDecode (hexEncode b) = some b := by
  induction b with
  | nil => rfl
  | cons c r ih =>
    have hc : c.toNat < 256 := c.toNat_lt
    simp only [hexEncode, hexDecode, ih, hexVal_digitChar (show c.toNat / 16 < 16 by omega),
      hexVal_digitChar (show c.toNat % 16 < 16 by omega)]
    have : c.toNat / 16 * 16 + c.toNat % 16 = c.toNat := by omega
    rw [this, UInt8.ofNat_toNat]

theorem hexEncode_injective {a b : Bytes} (h : hexEncode a = hexEncode b) : a = b := by
  have := congrArg hexDecode h
  rw [hexDecode_hexEncode, hexDecode_hexEncode] at this
  exact Option.some.inj this

theorem hexEncode_length (b : Bytes) : (hexEncode b).length = 2 * b.length := by
  induction b with
  | nil => rfl
  | cons c r ih => simp only [hexEncode, List.length_cons, ih]; omega

end Tuf
