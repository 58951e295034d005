import Verif.Model.Go
/-! # Specification of escape sequences, from ECMA-48 and the documentation of the two options

`Escape7 e rest` and `Escape8 e rest`: the text `e ++ rest` begins with the escape sequence `e`. What
comes after matters only for a control string that is cancelled by CAN or SUB: these end the sequence
but are not part of it. Nothing here is computed by the code: the sequences are described as
concatenations of byte classes. -/
namespace Uax29.Spec

/-- A byte in a range. -/
def byteIn (lo hi : Nat) (b : UInt8) : Prop := lo ≤ b.toNat ∧ b.toNat ≤ hi

/-- What follows the introducer of a control sequence: parameter bytes, intermediate bytes, one final
byte. -/
def controlSequence (body : Bytes) : Prop :=
  ∃ params inters final, body = params ++ inters ++ [final] ∧ (∀ b ∈ params, byteIn 0x30 0x3F b) ∧
    (∀ b ∈ inters, byteIn 0x20 0x2F b) ∧ byteIn 0x40 0x7E final

/-- CAN and SUB, which cancel a control string. -/
def cancels : List Bytes := [[0x18], [0x1A]]

/-- What follows the introducer of a control string: a payload up to the first terminator. The
terminators in `terms` belong to the control string; CAN and SUB end it without belonging to it. -/
def controlString (terms : List Bytes) (body rest : Bytes) : Prop :=
  ∃ payload t, body = payload ++ t ∧
    (t ∈ terms ∨ t = [] ∧ ∃ c ∈ cancels, c <+: rest) ∧
    ∀ x y, payload = x ++ y → y ≠ [] → ∀ s ∈ terms ++ cancels, ¬ s <+: y ++ t ++ rest

/-- BEL. -/
def BEL : Bytes := [0x07]
/-- The string terminator ST in 7-bit form, `ESC \`. -/
def ST7 : Bytes := [0x1B, 0x5C]
/-- The string terminator ST in 8-bit form. -/
def ST8 : Bytes := [0x9C]

/-- The 7-bit escape sequences — documentation of graphemes/ansi.go:3-10. -/
inductive Escape7 : Bytes → Bytes → Prop
  /-- CSI: `ESC [` and a control sequence. -/
  | csi {body rest} (h : controlSequence body) : Escape7 (0x1B :: 0x5B :: body) rest
  /-- OSC: `ESC ]` and a control string ended by BEL or `ESC \`. -/
  | osc {body rest} (h : controlString [BEL, ST7] body rest) : Escape7 (0x1B :: 0x5D :: body) rest
  /-- DCS, SOS, PM, APC: `ESC P`, `ESC X`, `ESC ^`, `ESC _` and a control string ended by `ESC \`. -/
  | str {c body rest} (hc : c ∈ [0x50, 0x58, 0x5E, 0x5F]) (h : controlString [ST7] body rest) :
      Escape7 (0x1B :: c :: body) rest
  /-- Two bytes: `ESC` and a byte of Fp, Fe or Fs that does not introduce one of the above. -/
  | two {c rest} (hc : byteIn 0x30 0x7E c) (hn : c ∉ [0x5B, 0x5D, 0x50, 0x58, 0x5E, 0x5F]) :
      Escape7 [0x1B, c] rest
  /-- nF: `ESC`, one or more intermediate bytes, one final byte. -/
  | nF {inters final rest} (hne : inters ≠ []) (hi : ∀ b ∈ inters, byteIn 0x20 0x2F b)
      (hf : byteIn 0x30 0x7E final) : Escape7 (0x1B :: inters ++ [final]) rest

/-- The 8-bit escape sequences — documentation of graphemes/ansi8.go:3-10. -/
inductive Escape8 : Bytes → Bytes → Prop
  /-- C1 CSI and a control sequence. -/
  | csi {body rest} (h : controlSequence body) : Escape8 (0x9B :: body) rest
  /-- C1 OSC and a control string ended by BEL or C1 ST. -/
  | osc {body rest} (h : controlString [BEL, ST8] body rest) : Escape8 (0x9D :: body) rest
  /-- C1 DCS, SOS, PM, APC and a control string ended by C1 ST. -/
  | str {c body rest} (hc : c ∈ [0x90, 0x98, 0x9E, 0x9F]) (h : controlString [ST8] body rest) :
      Escape8 (c :: body) rest
  /-- Any other C1 control. -/
  | single {c rest} (hc : byteIn 0x80 0x9F c) (hn : c ∉ [0x9B, 0x9D, 0x90, 0x98, 0x9E, 0x9F]) :
      Escape8 [c] rest

/-- The text `d` begins with an escape sequence of the enabled kinds. -/
def beginsEscape (seven eight : Bool) (d : Bytes) : Prop :=
  ∃ e v, d = e ++ v ∧ (seven = true ∧ Escape7 e v ∨ eight = true ∧ Escape8 e v)

end Uax29.Spec
