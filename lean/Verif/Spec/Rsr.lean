import Verif.Model.Rsr

/-!
# Specification: RSR files (C68-C73)

Only the data types of the model are used here (`Byte`, `Fmt`, `Val`), and the IEEE format of floats (`dblOfBits`), no other function
of it.
-/
namespace Verif.Rsr.Spec
open Verif.Rsr

/-- The `n` bytes from offset `o` on as a big-endian number (missing bytes count as 0). -/
def numAt (f : List Byte) (o : Nat) : Nat → Nat
  | 0 => 0
  | n + 1 => 256 * numAt f o n + (f.getD (o + n) 0).val

/-- Two's complement of `n` bytes. -/
def signedAt (f : List Byte) (o n : Nat) : Int :=
  if numAt f o n < 256 ^ n / 2 then numAt f o n else (numAt f o n : Int) - 256 ^ n

/-- What the integer fields of the header are called, where they are, how many bytes they have and whether they are
signed. -/
def intLayout : List (String × Nat × Nat × Bool) :=
  [("sfdu_length", 12, 8, false), ("ha_type", 20, 2, false), ("ha_length", 22, 2, false), ("ph_type", 24, 2, false),
   ("ph_length", 26, 2, false), ("ph_data_major", 28, 1, false), ("ph_data_minor", 29, 1, false),
   ("ph_mission_ID", 30, 1, false), ("ph_format_code", 31, 1, false), ("sh_type", 32, 2, true),
   ("sh_length", 34, 2, true), ("sh_originator", 36, 1, false), ("sh_last_modifier", 37, 1, false),
   ("sh_rsr_software_id", 38, 2, true), ("sh_record_sequence_number", 40, 2, true), ("sh_spc_id", 42, 1, false),
   ("sh_dss_id", 43, 1, false), ("sh_rsr_id", 44, 1, false), ("sh_schan_id", 45, 1, false),
   ("sh_spacecraft", 47, 1, false), ("sh_prdx_pass_number", 48, 2, false), ("sh_trk_mode", 52, 1, false),
   ("sh_ul_dss_id", 53, 1, false), ("sh_fgain_px_no", 54, 1, true), ("sh_fgain_if_bandwidth", 55, 1, false),
   ("sh_frov_flag", 56, 1, false), ("sh_attenuation", 57, 1, false), ("sh_adc_rms", 58, 1, false),
   ("sh_adc_peak", 59, 1, false), ("sh_year", 60, 2, false), ("sh_doy", 62, 2, false), ("sh_seconds", 64, 4, false),
   ("sh_bits_per_sample", 68, 1, false), ("sh_data_error", 69, 1, false), ("sh_sample_rate", 70, 2, false),
   ("sh_ddc_lo", 72, 2, false), ("sh_rfif_lo", 74, 2, false), ("sh_sfdu_year", 76, 2, false),
   ("sh_sfdu_doy", 78, 2, false), ("Data_type", 256, 2, false), ("Data_length", 258, 2, false)]

/-- The fields with 64-bit floats. -/
def dblLayout : List (String × Nat) :=
  [("sh_sfdu_seconds", 80), ("sh_predicts_time_shift", 88), ("sh_predicts_freq_override", 96),
   ("sh_predicts_freq_rate", 104), ("sh_predicts_freq_offset", 112), ("sh_sub_channel_freq", 120),
   ("sh_rf_freq_point_1", 128), ("sh_rf_freq_point_2", 136), ("sh_rf_freq_point_3", 144),
   ("sh_schan_freq_point_1", 152), ("sh_schan_freq_point_2", 160), ("sh_schan_freq_point_3", 168),
   ("sh_schan_freq_poly_coef_1", 176), ("sh_schan_freq_poly_coef_2", 184), ("sh_schan_freq_poly_coef_3", 192),
   ("sh_schan_accum_phase", 200), ("sh_schan_phase_poly_coef_1", 208), ("sh_schan_phase_poly_coef_2", 216),
   ("sh_schan_phase_poly_coef_3", 224), ("sh_schan_phase_poly_coef_4", 232), ("sh_reserved2a", 240),
   ("sh_reserved2b", 248)]

/-- The fields with one character. -/
def chrLayout : List (String × Nat) := [("sh_reserved", 46), ("sh_ulband", 50), ("sh_dl_band", 51)]

/-- The two bytes of a 16-bit word, high byte first, two's complement. -/
def word (z : Int) : List Byte :=
  [⟨(z % 65536).toNat / 256 % 256, Nat.mod_lt _ (by decide)⟩, ⟨(z % 65536).toNat % 256, Nat.mod_lt _ (by decide)⟩]

/-- One block ("SFDU") of a file: the header and the samples (I, Q). -/
structure Block where
  hdr : List Byte
  data : List (Int × Int)

/-- The bytes of a block: 16-bit words, Q before I. -/
def Block.bytes (b : Block) : List Byte := b.hdr ++ b.data.flatMap fun p => word p.2 ++ word p.1

/-- A file: blocks and perhaps the beginning of a further one. -/
def fileOf (l : List Block) (rest : List Byte) : List Byte := l.flatMap Block.bytes ++ rest

/-- A well-formed file with `n` samples per block of 16 bits. -/
structure WellFormed (n : Nat) (l : List Block) (rest : List Byte) : Prop where
  pos : 0 < n
  some : l ≠ []
  hdr : ∀ b ∈ l, b.hdr.length = 260
  data : ∀ b ∈ l, b.data.length = n
  range : ∀ b ∈ l, ∀ p ∈ b.data, (-32768 ≤ p.1 ∧ p.1 ≤ 32767) ∧ (-32768 ≤ p.2 ∧ p.2 ≤ 32767)
  tail : rest.length < 260 + 4 * n
  length : numAt (fileOf l rest) 12 8 = 240 + 4 * n
  bits : numAt (fileOf l rest) 68 1 = 16
  bytes : numAt (fileOf l rest) 258 2 = 4 * n

/-- The times: file with `hz` samples per second from second `s` on; everything less than 2¹⁹ seconds (six days). -/
structure Timed (l : List Block) (rest : List Byte) (n : Nat) (rate : Nat) (s : ℚ) : Prop where
  hrate : numAt (fileOf l rest) 70 2 = rate
  start : dblOfBits (numAt (fileOf l rest) 80 8) = .fin s
  nonneg : 0 ≤ s
  stop : s + ((n * l.length : ℕ) : ℚ) / ((rate : ℚ) * 1000) ≤ 2 ^ 19

/-- The samples of a file in the order of time. -/
def samples (l : List Block) : List (Int × Int) := l.flatMap Block.data

/-- The sample rates in Hz that the keywords ask for, for a file with the given rate in kHz. -/
def requested (f : Flags) (rate : Nat) : List Nat :=
  if rate = 50 then
    (if f.d50to25 then [25000] else []) ++ (if f.d50to10 then [10000] else []) ++ (if f.d50to5 then [5000] else []) ++
      (if f.d50to1 then [1000] else [])
  else if rate = 16 then
    (if f.d16to8 then [8000] else []) ++ (if f.d16to4 then [4000] else []) ++ (if f.d16to2 then [2000] else []) ++
      (if f.d16to1 then [1000] else [])
  else []

/-- The rate after decimation, in Hz: the highest rate asked for ("overrules"), else that of the file. -/
def finalRate (f : Flags) (rate : Nat) : Nat := (requested f rate).max?.getD (rate * 1000)

/-- The block in which a time lies, for a file of `m` blocks of `n` samples from `s` on with `hz` samples per second; times
after the end belong to the last block. -/
def blockOf (s hz : ℚ) (n m : Nat) (v : ℚ) : Nat := min (m - 1) ⌊(v - s) * hz / n⌋.toNat

/-- The predicted sky frequency at time `v` from the local oscillators and the polynomial in the header of a block. -/
def SkyFreq (b : Block) (v y : ℚ) : Prop :=
  ∃ p1 p2 p3, dblOfBits (numAt b.hdr 176 8) = .fin p1 ∧ dblOfBits (numAt b.hdr 184 8) = .fin p2 ∧
    dblOfBits (numAt b.hdr 192 8) = .fin p3 ∧
    y = (numAt b.hdr 74 2 + numAt b.hdr 72 2) * 10 ^ 6 - (p1 + p2 * Int.fract v + p3 * Int.fract v ^ 2)

end Verif.Rsr.Spec
