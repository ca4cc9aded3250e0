import Verif.Proofs.Time
import Verif.Proofs.Registry

/-!
# Property C08: timestamps
-/
namespace Verif.Props
open Verif Verif.Model Verif.Spec Verif.Proofs

/-- Nanoseconds since the epoch: the instant a time denotes. -/
def instant (t : GoTime) : Int := t.sec * 1000000000 + t.nsec

/-- A `time.Time` between the epoch and the last microsecond of the encoding (year 294246): `instant < 2^63 µs`. -/
def Representable (t : GoTime) : Prop := t.nsec < 1000000000 ∧ 0 ≤ instant t ∧ instant t < 2 ^ 63 * 1000

theorem unixMicro_repr {t : GoTime} (h : Representable t) : t.unixMicro = instant t / 1000 := by
  obtain ⟨h1, h2, h3⟩ := h
  unfold instant at *
  unfold GoTime.unixMicro
  have h4 : t.sec * 1000000 + (t.nsec / 1000 : Nat) = (t.sec * 1000000000 + t.nsec) / 1000 := by omega
  rw [h4]
  apply Int.bmod_eq_of_le <;> omega

theorem representable_not_zero {t : GoTime} (h : Representable t) : t.isZero = false := by
  obtain ⟨h1, h2, h3⟩ := h
  unfold instant at *
  unfold GoTime.isZero zeroSec
  have : ¬ t.sec = -62135596800 := by omega
  simp [this]

/-- **C08 (encode).** A representable time encodes to its microsecond count. -/
theorem C08_encode {t : GoTime} (h : Representable t) :
    timeCodec.enc t = .ok (.u64 (UInt64.ofNat (instant t / 1000).toNat)) ∧
      (UInt64.ofNat (instant t / 1000).toNat).toNat = (instant t / 1000).toNat := by
  have hm := unixMicro_repr h
  refine ⟨?_, ?_⟩
  · show timeEncode t = _
    unfold timeEncode
    rw [representable_not_zero h, hm]
    have := h.2.1
    simp only [Bool.false_eq_true, if_false]
    rw [if_neg (by omega)]
  · rw [UInt64.toNat_ofNat']
    have := h.2.1; have := h.2.2
    omega

/-- **C08 (round trip).** Decoding what a representable time encodes to gives the same instant truncated to the microsecond. -/
theorem C08_roundtrip {t : GoTime} (h : Representable t) :
    ∃ a t', timeCodec.enc t = .ok a ∧ timeCodec.dec a = .ok t' ∧ instant t' = instant t - instant t % 1000 ∧ t'.nsec < 1000000000 := by
  have he := (C08_encode h).1
  have hd := (vanEnv_lawful "vanflow.Time" t _ he).2
  refine ⟨_, timeRT "vanflow.Time" t, he, hd, ?_, ?_⟩
  · unfold timeRT
    rw [unixMicro_repr h]
    have := h.2.1
    generalize instant t = n at *
    unfold instant GoTime.ofUnixMicro
    simp only
    omega
  · unfold timeRT GoTime.ofUnixMicro
    simp only
    omega

/-- **C08 (order).** Encoding preserves order. -/
theorem C08_order {t1 t2 : GoTime} (h1 : Representable t1) (h2 : Representable t2) {n1 n2 : UInt64}
    (e1 : timeCodec.enc t1 = .ok (.u64 n1)) (e2 : timeCodec.enc t2 = .ok (.u64 n2)) :
    (instant t1 ≤ instant t2 → n1.toNat ≤ n2.toNat) ∧
    (instant t1 - instant t1 % 1000 < instant t2 - instant t2 % 1000 ↔ n1.toNat < n2.toNat) := by
  obtain ⟨a1, b1⟩ := C08_encode h1
  obtain ⟨a2, b2⟩ := C08_encode h2
  rw [a1] at e1; rw [a2] at e2
  injection e1 with e1; injection e1 with e1
  injection e2 with e2; injection e2 with e2
  subst e1; subst e2
  rw [b1, b2]
  have := h1.2.1; have := h2.2.1
  omega

/-- **C08 (unset).** The zero time is "not set". -/
theorem C08_zero : timeCodec.enc GoTime.zero = .error .notSet := rfl

/-- **C08 (before the epoch).** Other times before the epoch (within the 64-bit microsecond range) are rejected. -/
theorem C08_before_epoch {t : GoTime} (hn : t.nsec < 1000000000) (hneg : instant t < 0) (hrange : -(2 ^ 63) * 1000 ≤ instant t)
    (hz : t ≠ GoTime.zero) : ∃ msg, timeCodec.enc t = .error (.fail msg) := by
  have hzero : t.isZero = false := by
    obtain ⟨s, n⟩ := t
    simp only [GoTime.isZero]
    by_cases hs : s = zeroSec
    · by_cases hn : n = 0
      · exact absurd (by simp [hs, hn, GoTime.zero]) hz
      · simp [hn]
    · simp [hs]
  have hmicro : t.unixMicro < 0 := by
    unfold instant at *
    unfold GoTime.unixMicro
    have h4 : t.sec * 1000000 + (t.nsec / 1000 : Nat) = (t.sec * 1000000000 + t.nsec) / 1000 := by omega
    rw [h4, Int.bmod_eq_of_le] <;> omega
  refine ⟨"cannot represent times before epoch in this encoding", ?_⟩
  show timeEncode t = _
  unfold timeEncode
  rw [hzero]
  simp [hmicro]

/-- **C08 (decode rejects).** Values of another type and values above MaxInt64 are rejected; all others are accepted. -/
theorem C08_decode_accepts_iff (a : Any) :
    (∃ t, timeCodec.dec a = .ok t) ↔ ∃ n : UInt64, a = .u64 n ∧ n.toNat ≤ 2 ^ 63 - 1 := by
  show (∃ t, timeDecode a = .ok t) ↔ _
  cases a <;> simp [timeDecode]
  rename_i n
  by_cases h : 9223372036854775807 < n.toNat
  · simp [h]
  · simp [h]; omega

/-- Non-vacuity of C08: 2023-11-14T22:13:20.123456789Z. -/
example : Representable ⟨1700000000, 123456789⟩ ∧ Representable ⟨1700000000, 123457000⟩ ∧
    timeCodec.enc ⟨1700000000, 123456789⟩ = .ok (.u64 1700000000123456) ∧
    timeCodec.dec (.u64 1700000000123456) = .ok ⟨1700000000, 123456000⟩ := by
  refine ⟨?_, ?_, rfl, rfl⟩ <;> unfold Representable instant <;> decide
example : ∃ msg, timeCodec.enc ⟨-1, 0⟩ = .error (.fail msg) :=
  C08_before_epoch (by decide) (by decide) (by decide) (by decide)

/-- Finding beside C08: beyond the representable range the encoder does not fail; a time in the year 586,524 is silently
encoded as an instant in 1970. -/
theorem C08_far_future_wraps :
    timeCodec.enc ⟨18446744073710, 0⟩ = .ok (.u64 448384) ∧ timeCodec.dec (.u64 448384) = .ok ⟨0, 448384000⟩ := by
  refine ⟨rfl, rfl⟩

end Verif.Props
