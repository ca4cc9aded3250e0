import Verif.Model.Token

/-!
# Base64 and little-endian round trips
-/
namespace Verif.Proofs
open Verif Verif.Model

theorem b64Val_char : ∀ n, n < 64 → b64Val (b64Char n) = some n := by decide

theorem b64Char_ne : ∀ n, n < 64 → b64Char n ≠ '\r' ∧ b64Char n ≠ '\n' := by decide

theorem b64Val_lt {c : Char} {n : Nat} (h : b64Val c = some n) : n < 64 := by
  unfold b64Val at h
  simp only at h
  repeat' split at h
  all_goals simp only [Option.some.injEq, reduceCtorEq] at h
  all_goals omega

theorem u8_lt (a : UInt8) : a.toNat < 256 := UInt8.toNat_lt a

theorem u8_of {a : UInt8} {n : Nat} (h : n = a.toNat) : UInt8.ofNat n = a := by subst h; simp

theorem b64Quanta_encode : ∀ bs : List UInt8, b64Quanta (b64Encode bs) = some bs
  | [] => rfl
  | [a] => by
    have ha := u8_lt a
    have h1 := b64Val_char (a.toNat / 4) (by omega)
    have h2 := b64Val_char (a.toNat % 4 * 16) (by omega)
    have hp : b64Val '=' = none := by decide
    simp only [b64Encode, b64Quanta, h1, h2, hp]
    simp only [and_self, if_true, b64Byte1, Option.some.injEq, List.cons.injEq, and_true]
    apply u8_of; omega
  | [a, b] => by
    have ha := u8_lt a
    have hb := u8_lt b
    have h1 := b64Val_char (a.toNat / 4) (by omega)
    have h2 := b64Val_char (a.toNat % 4 * 16 + b.toNat / 16) (by omega)
    have h3 := b64Val_char (b.toNat % 16 * 4) (by omega)
    have hp : b64Val '=' = none := by decide
    simp only [b64Encode, b64Quanta, h1, h2, h3, hp]
    simp only [and_self, if_true, b64Byte1, b64Byte2, Option.some.injEq, List.cons.injEq, and_true]
    constructor
    · apply u8_of; omega
    · apply u8_of; omega
  | a :: b :: c :: rest => by
    have ha := u8_lt a
    have hb := u8_lt b
    have hc := u8_lt c
    have h1 := b64Val_char (a.toNat / 4) (by omega)
    have h2 := b64Val_char (a.toNat % 4 * 16 + b.toNat / 16) (by omega)
    have h3 := b64Val_char (b.toNat % 16 * 4 + c.toNat / 64) (by omega)
    have h4 := b64Val_char (c.toNat % 64) (by omega)
    have ih := b64Quanta_encode rest
    simp only [b64Encode, b64Quanta, h1, h2, h3, h4, ih, Option.map_some, b64Byte1, b64Byte2, b64Byte3,
      Option.some.injEq, List.cons.injEq, and_true]
    refine ⟨?_, ?_, ?_⟩
    · apply u8_of; omega
    · apply u8_of; omega
    · apply u8_of; omega

theorem b64Encode_clean : ∀ bs : List UInt8, ∀ c ∈ b64Encode bs, c ≠ '\r' ∧ c ≠ '\n'
  | [], c, h => by simp [b64Encode] at h
  | [a], c, h => by
    have ha := u8_lt a
    simp only [b64Encode, List.mem_cons, List.not_mem_nil, or_false] at h
    rcases h with h | h | h | h <;> subst h
    · exact b64Char_ne _ (by omega)
    · exact b64Char_ne _ (by omega)
    · decide
    · decide
  | [a, b], c, h => by
    have ha := u8_lt a
    have hb := u8_lt b
    simp only [b64Encode, List.mem_cons, List.not_mem_nil, or_false] at h
    rcases h with h | h | h | h <;> subst h
    · exact b64Char_ne _ (by omega)
    · exact b64Char_ne _ (by omega)
    · exact b64Char_ne _ (by omega)
    · decide
  | a :: b :: d :: rest, c, h => by
    have ha := u8_lt a
    have hb := u8_lt b
    have hd := u8_lt d
    simp only [b64Encode, List.mem_cons] at h
    rcases h with h | h | h | h | h
    · subst h; exact b64Char_ne _ (by omega)
    · subst h; exact b64Char_ne _ (by omega)
    · subst h; exact b64Char_ne _ (by omega)
    · subst h; exact b64Char_ne _ (by omega)
    · exact b64Encode_clean rest c h

theorem b64_roundtrip (bs : List UInt8) : b64Decode (b64Encode bs) = some bs := by
  unfold b64Decode
  rw [List.filter_eq_self.2, b64Quanta_encode]
  intro c hc
  have := b64Encode_clean bs c hc
  simp [this]

theorem leBytes_length : ∀ (n : Nat) (v : Int), (leBytes n v).length = n
  | 0, _ => rfl
  | n + 1, v => by simp [leBytes, leBytes_length n]

theorem leNat_leBytes : ∀ (n : Nat) (v : Int), (leNat (leBytes n v) : Int) = v % 256 ^ n
  | 0, v => by simp [leBytes, leNat, Int.emod_one]
  | n + 1, v => by
    have ih := leNat_leBytes n (v / 256)
    have hb : (UInt8.ofNat (v % 256).toNat).toNat = (v % 256).toNat := by
      rw [UInt8.toNat_ofNat']
      apply Nat.mod_eq_of_lt
      omega
    simp only [leBytes, leNat, hb]
    rw [Int.natCast_add, Int.natCast_mul, ih]
    have h0 : (0 : Int) ≤ v % 256 := Int.emod_nonneg _ (by decide)
    rw [Int.toNat_of_nonneg h0]
    have hm : (256 : Int) ^ (n + 1) = 256 * 256 ^ n := by rw [Int.pow_succ, Int.mul_comm]
    rw [hm]
    have hpos : (0 : Int) < 256 ^ n := Int.pow_pos (by decide)
    have key : v % (256 * 256 ^ n) = v % 256 + 256 * (v / 256 % 256 ^ n) := by
      have e1 := Int.emod_add_mul_ediv v 256
      have e2 := Int.emod_add_mul_ediv (v / 256) (256 ^ n)
      have hlt := Int.emod_lt_of_pos (v / 256) hpos
      have hge := Int.emod_nonneg (v / 256) (Int.ne_of_gt hpos)
      have hlt2 := Int.emod_lt_of_pos v (show (0 : Int) < 256 by decide)
      generalize hr : v / 256 % 256 ^ n = r at *
      generalize hq : v / 256 / 256 ^ n = q at *
      have hv : v = (v % 256 + 256 * r) + (256 * 256 ^ n) * q := by
        calc v = v % 256 + 256 * (v / 256) := e1.symm
          _ = v % 256 + 256 * (r + 256 ^ n * q) := by rw [e2]
          _ = (v % 256 + 256 * r) + (256 * 256 ^ n) * q := by
            rw [Int.mul_add, Int.add_assoc, Int.mul_assoc]
      have : v % (256 * 256 ^ n) = (v % 256 + 256 * r) % (256 * 256 ^ n) := by
        conv => lhs; rw [hv]
        rw [Int.add_mul_emod_self_left]
      rw [this]
      apply Int.emod_eq_of_lt
      · omega
      · generalize (256 : Int) ^ n = p at *
        omega
    rw [key]; rfl

theorem leInt_leBytes (n : Nat) (v : Int) : leInt (leBytes n v) = Int.bmod v (2 ^ (8 * n)) := by
  unfold leInt
  rw [leBytes_length, leNat_leBytes]
  have : (256 : Int) ^ n = ((2 ^ (8 * n) : Nat) : Int) := by
    rw [Nat.pow_mul, Int.natCast_pow]; rfl
  rw [this, Int.emod_bmod]

theorem decodeETag_encode (v u : Int) :
    decodeETag (encodeETag v u) = .ok { version := Int.bmod v (2 ^ 64), updatedAt := Int.bmod u (2 ^ 64) } := by
  unfold decodeETag encodeETag
  rw [String.toList_ofList, b64_roundtrip]
  have hl : (leBytes 8 v ++ leBytes 8 u).length = 16 := by simp [leBytes_length]
  simp only [hl]
  have h1 : (leBytes 8 v ++ leBytes 8 u).take 8 = leBytes 8 v := by
    rw [List.take_append_of_le_length (by simp [leBytes_length]), List.take_of_length_le (by simp [leBytes_length])]
  have h2 : (leBytes 8 v ++ leBytes 8 u).drop 8 = leBytes 8 u := by
    rw [List.drop_append_of_le_length (by simp [leBytes_length]), List.drop_of_length_le (by simp [leBytes_length]),
      List.nil_append]
  rw [h1, h2, List.take_of_length_le (by simp [leBytes_length])]
  simp [leInt_leBytes]

theorem decodeContinue_encode (n o : Int) :
    decodeContinue (encodeContinue n o) = .ok (Int.bmod o (2 ^ 32)) := by
  unfold decodeContinue encodeContinue
  rw [String.toList_ofList, b64_roundtrip]
  have hl : (leBytes 8 n ++ leBytes 4 o).length = 12 := by simp [leBytes_length]
  simp only [hl]
  have h2 : (leBytes 8 n ++ leBytes 4 o).drop 8 = leBytes 4 o := by
    rw [List.drop_append_of_le_length (by simp [leBytes_length]), List.drop_of_length_le (by simp [leBytes_length]),
      List.nil_append]
  rw [h2, List.take_of_length_le (by simp [leBytes_length])]
  simp [leInt_leBytes]

theorem encodeContinue_ne (n o : Int) : encodeContinue n o ≠ "" := by
  intro h
  have := decodeContinue_encode n o
  rw [h] at this
  have h2 : decodeContinue "" = .err "unexpected EOF" := by decide
  rw [h2] at this
  exact absurd this (by simp)

theorem bmod_of_range {x : Int} {n : Nat} (h1 : -(2 ^ n : Nat) ≤ x) (h2 : x < (2 ^ n : Nat)) :
    Int.bmod x (2 ^ (n + 1)) = x := by
  apply Int.bmod_eq_of_le
  · rw [Nat.pow_succ]; omega
  · rw [Nat.pow_succ]; omega

/-- Accepted text is made of quanta of four, all characters from the alphabet but for padding. -/
theorem b64Quanta_some : ∀ (cs : List Char) (bs : List UInt8), b64Quanta cs = some bs →
    cs.length % 4 = 0 ∧ (∀ c ∈ cs, (b64Val c).isSome ∨ c = '=') ∧
    4 * bs.length ≤ 3 * (cs.filter fun c => c ≠ '=').length ∧ bs.length ≤ 3 * (cs.length / 4)
  | [], bs, h => by simp [b64Quanta] at h; subst h; simp
  | [_], _, h => by simp [b64Quanta] at h
  | [_, _], _, h => by simp [b64Quanta] at h
  | [_, _, _], _, h => by simp [b64Quanta] at h
  | a :: b :: c :: d :: rest, bs, h => by
    have hne : ∀ {x : Char} {n : Nat}, b64Val x = some n → x ≠ '=' := by
      rintro x n hx rfl
      have : b64Val '=' = none := by decide
      rw [this] at hx; simp at hx
    simp only [b64Quanta] at h
    cases ha : b64Val a with
    | none => simp [ha] at h
    | some x =>
      cases hb : b64Val b with
      | none => simp [ha, hb] at h
      | some y =>
        simp only [ha, hb] at h
        cases hc : b64Val c with
        | none =>
          simp only [hc] at h
          split at h
          · rename_i hp
            obtain ⟨rfl, rfl, rfl⟩ := hp
            simp only [Option.some.injEq] at h
            subst h
            simp [ha, hb, hne ha, hne hb]
          · simp at h
        | some z =>
          cases hd : b64Val d with
          | none =>
            simp only [hc, hd] at h
            split at h
            · rename_i hp
              obtain ⟨rfl, rfl⟩ := hp
              simp only [Option.some.injEq] at h
              subst h
              simp [ha, hb, hc, hne ha, hne hb, hne hc]
            · simp at h
          | some w =>
            simp only [hc, hd, Option.map_eq_some_iff] at h
            obtain ⟨bs', h1, rfl⟩ := h
            have ih := b64Quanta_some rest bs' h1
            refine ⟨by simp; omega, ?_, ?_, ?_⟩
            · intro e he
              simp only [List.mem_cons] at he
              rcases he with rfl | rfl | rfl | rfl | he
              · simp [ha]
              · simp [hb]
              · simp [hc]
              · simp [hd]
              · exact ih.2.1 e he
            · have := ih.2.2.1
              simp [hne ha, hne hb, hne hc, hne hd] at this ⊢
              omega
            · have := ih.2.2.2
              simp only [List.length_cons]
              omega

end Verif.Proofs
