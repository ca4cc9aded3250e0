import Verif.Model.Time
import Verif.Spec.Encoding

/-!
# Lemmas about times
-/
namespace Verif.Proofs
open Verif Verif.Model Verif.Spec

theorem ofUnixMicro_unixMicro {n : Nat} (h : n ≤ 2 ^ 63 - 1) : (GoTime.ofUnixMicro n).unixMicro = n := by
  unfold GoTime.unixMicro GoTime.ofUnixMicro
  simp only
  have h1 : (((n : Int) % 1000000).toNat * 1000 / 1000 : Nat) = ((n : Int) % 1000000).toNat := by
    rw [Nat.mul_div_cancel _ (by decide)]
  rw [h1]
  have h2 : (((n : Int) % 1000000).toNat : Int) = (n : Int) % 1000000 := by omega
  rw [h2]
  have h3 : (n : Int) / 1000000 * 1000000 + (n : Int) % 1000000 = n := by omega
  rw [h3]
  exact Int.bmod_eq_of_le (by omega) (by omega)

theorem ofUnixMicro_not_zero (n : Nat) : (GoTime.ofUnixMicro n).isZero = false := by
  simp only [GoTime.isZero, GoTime.ofUnixMicro, zeroSec]
  have : ¬ ((n : Int) / 1000000 = -62135596800) := by omega
  simp [this]

/-- The round trip of a time through its attribute. -/
def timeRT (_ : String) (t : GoTime) : GoTime := GoTime.ofUnixMicro t.unixMicro

theorem unixMicro_lt (t : GoTime) : t.unixMicro < 2 ^ 63 := by
  unfold GoTime.unixMicro
  have := @Int.bmod_lt (t.sec * 1000000 + (t.nsec / 1000 : Nat)) (2 ^ 64) (by decide)
  omega

theorem timeEncode_ok {t : GoTime} {a : Any} (h : timeEncode t = .ok a) :
    t.isZero = false ∧ 0 ≤ t.unixMicro ∧ a = .u64 (UInt64.ofNat t.unixMicro.toNat) := by
  unfold timeEncode at h
  split at h
  · simp at h
  · rename_i hz
    simp only at h
    split at h
    · simp at h
    · rename_i hn
      injection h with h
      exact ⟨by simpa using hz, by omega, h.symm⟩

theorem vanEnv_lawful : LawfulCodecs vanEnv timeRT := by
  intro c x a h
  obtain ⟨_, h1, rfl⟩ := timeEncode_ok h
  have hlt := unixMicro_lt x
  refine ⟨by simp, ?_⟩
  show timeDecode (Any.u64 (UInt64.ofNat x.unixMicro.toNat)) = Except.ok (timeRT c x)
  have hn : (UInt64.ofNat x.unixMicro.toNat).toNat = x.unixMicro.toNat := by
    rw [UInt64.toNat_ofNat']; apply Nat.mod_eq_of_lt; omega
  simp only [timeDecode, hn]
  rw [if_neg (by omega), timeRT]
  congr 2
  omega

theorem vanEnv_stable : StableCodecs vanEnv := by
  intro c a x h
  replace h : timeDecode a = .ok x := h
  show _ ∧ timeEncode x = _
  cases a <;> simp only [timeDecode] at h <;> try (simp at h; done)
  rename_i n
  split at h
  · simp at h
  · rename_i hle
    injection h with h; subst h
    refine ⟨by simp, ?_⟩
    unfold timeEncode
    rw [ofUnixMicro_not_zero, ofUnixMicro_unixMicro (by omega)]
    simp only [Bool.false_eq_true, if_false]
    rw [if_neg (by omega)]
    simp

end Verif.Proofs
