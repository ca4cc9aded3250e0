import Verif.Model.Wire
import Verif.Spec.Amqp

/-!
# The reader reads every encoding of the standard; the writer writes one of them
-/
namespace Verif.Proofs
open Verif Verif.Model Verif.Spec

theorem takeN_append {k : Nat} {a r : List UInt8} (h : a.length = k) : takeN k (a ++ r) = some (a, r) := by
  subst h; simp [takeN]

theorem takeN_one (b : UInt8) (r : List UInt8) : takeN 1 (b :: r) = some ([b], r) := by simp [takeN]

theorem fixedN_append {k : Nat} {mk : Nat → WVal} {a r : List UInt8} (h : a.length = k) :
    fixedN k mk (a ++ r) = some (.val (mk (beNat a)) r) := by simp [fixedN, takeN_append h]

theorem fixedN_one {mk : Nat → WVal} (b : UInt8) (r : List UInt8) :
    fixedN 1 mk (b :: r) = some (.val (mk b.toNat) r) := by simp [fixedN, takeN_one, beNat]

theorem octetsN_append {w : Nat} {mk : List UInt8 → Option WVal} {n a r : List UInt8} {v : WVal} (hw : n.length = w)
    (h : beNat n = a.length) (hv : mk a = some v) : octetsN w mk (n ++ (a ++ r)) = some (.val v r) := by
  simp [octetsN, takeN_append hw, takeN_append h.symm, hv]

theorem octetsN_one {mk : List UInt8 → Option WVal} {n : UInt8} {a r : List UInt8} {v : WVal}
    (h : n.toNat = a.length) (hv : mk a = some v) : octetsN 1 mk (n :: (a ++ r)) = some (.val v r) := by
  have := octetsN_append (w := 1) (n := [n]) (a := a) (r := r) (v := v) (mk := mk) rfl (by simpa [beNat] using h) hv
  simpa using this

theorem readUtf8_utf8 (mk : String → WVal) (s : String) : readUtf8 mk (utf8 s) = some (mk s) := by
  have : (⟨(utf8 s).toArray⟩ : ByteArray) = s.toUTF8 := by simp [utf8]
  rw [readUtf8, this]
  simp [String.fromUTF8?]
  exact ⟨s.isValidUTF8, rfl⟩

theorem compound_append {w : Nat} {mk : Nat → List UInt8 → Head} {size count body r : List UInt8} (h1 : size.length = w)
    (h2 : count.length = w) (hs : beNat size = body.length + w) (hc : beNat count ≤ body.length) :
    compound w mk (size ++ (count ++ (body ++ r))) = some (mk (beNat count) (body ++ r)) := by
  simp only [compound, takeN_append h1, Option.bind_some, takeN_append h2, List.length_append]
  rw [if_neg (by omega), if_neg (by omega)]

theorem Enc.length_pos {v : WVal} {bs : List UInt8} (h : Enc v bs) : 0 < bs.length := by
  cases h <;> simp

theorem Encs.length_le {l : List WVal} {bs : List UInt8} (h : Encs l bs) : l.length ≤ bs.length := by
  induction l generalizing bs with
  | nil => simp
  | cons v l ih =>
    cases h with
    | cons h hs => have := ih hs; have := Enc.length_pos h; simp; omega

/-- What reading an encoding needs: as much fuel as there are octets. -/
theorem read_enc {v : WVal} {bs : List UInt8} (h : Enc v bs) :
    ∀ (fuel : Nat) (r : List UInt8), bs.length ≤ fuel → readAny fuel (bs ++ r) = some (v, r) := by
  have val : ∀ {v : WVal} {bs : List UInt8}, 0 < bs.length → (∀ r, readHead (bs ++ r) = some (.val v r)) →
      ∀ (fuel : Nat) (r : List UInt8), bs.length ≤ fuel → readAny fuel (bs ++ r) = some (v, r) := by
    intro v bs hp hh fuel r hf
    cases fuel with
    | zero => omega
    | succ fuel => rw [readAny, hh]
  refine Enc.rec (motive_1 := fun v bs _ => ∀ (fuel : Nat) (r : List UInt8), bs.length ≤ fuel → readAny fuel (bs ++ r) = some (v, r))
    (motive_2 := fun l bs _ => ∀ (fuel : Nat) (r : List UInt8), bs.length + 1 ≤ fuel → readMany fuel l.length (bs ++ r) = some (l, r))
    ?_ ?_ ?_ ?_ ?_ ?_ ?_ ?_ ?_ ?_ ?_ ?_ ?_ ?_ ?_ ?_ ?_ ?_ ?_ ?_ ?_ ?_ ?_ ?_ ?_ ?_ ?_ ?_ h
  -- scalars
  · exact val (by simp) (fun r => by simp [readHead])
  · intro b; exact val (by simp) (fun r => by cases b <;> simp [readHead])
  · intro b; exact val (by simp) (fun r => by cases b <;> simp [readHead, fixedN_one])
  · intro n; exact val (by simp) (fun r => by simp [readHead, fixedN_one])
  · exact val (by simp) (fun r => by simp [readHead])
  · intro n b h; exact val (by simp) (fun r => by simp [readHead, fixedN_one, ← h])
  · intro n bs hl h; exact val (by simp) (fun r => by simp [readHead, fixedN_append hl, ← h])
  · exact val (by simp) (fun r => by simp [readHead])
  · intro n b h; exact val (by simp) (fun r => by simp [readHead, fixedN_one, ← h])
  · intro n bs hl h; exact val (by simp) (fun r => by simp [readHead, fixedN_append hl, ← h])
  · intro n b h; exact val (by simp) (fun r => by simp [readHead, fixedN_one, ← h])
  · intro n bs hl h; exact val (by simp) (fun r => by simp [readHead, fixedN_append hl, ← h])
  · intro n b h; exact val (by simp) (fun r => by simp [readHead, fixedN_one, ← h])
  · intro n bs hl h; exact val (by simp) (fun r => by simp [readHead, fixedN_append hl, ← h])
  · intro n bs hl h; exact val (by simp) (fun r => by simp [readHead, fixedN_append hl, ← h])
  · intro bs n h; exact val (by simp) (fun r => by simp [readHead, octetsN_one h (mk := fun b => some (.bin b)) rfl])
  · intro bs n hl h; exact val (by simp) (fun r => by simp [readHead, octetsN_append hl h (mk := fun b => some (.bin b)) rfl])
  · intro s n h; exact val (by simp) (fun r => by simp [readHead, octetsN_one h (readUtf8_utf8 .str s)])
  · intro s n hl h; exact val (by simp) (fun r => by simp [readHead, octetsN_append hl h (readUtf8_utf8 .str s)])
  · intro s n h; exact val (by simp) (fun r => by simp [readHead, octetsN_one h (readUtf8_utf8 .sym s)])
  · intro s n hl h; exact val (by simp) (fun r => by simp [readHead, octetsN_append hl h (readUtf8_utf8 .sym s)])
  -- lists and maps
  · exact val (by simp) (fun r => by simp [readHead])
  · intro l body size count hb hs hc ih fuel r hf
    cases fuel with
    | zero => simp at hf
    | succ fuel =>
      have hle := Encs.length_le hb
      have := compound_append (w := 1) (mk := .list) (size := [size]) (count := [count]) (body := body) (r := r) rfl rfl
        (by simpa [beNat] using hs) (by simp [beNat]; omega)
      have hh : readHead (0xc0 :: size :: count :: body ++ r) = some (.list l.length (body ++ r)) := by
        simpa [readHead, beNat, hc] using this
      rw [readAny, hh]
      simp at hf
      simp [ih fuel r (by omega)]
  · intro l body size count hb hsl hcl hs hc ih fuel r hf
    cases fuel with
    | zero => simp at hf
    | succ fuel =>
      have hle := Encs.length_le hb
      have := compound_append (w := 4) (mk := .list) (size := size) (count := count) (body := body) (r := r) hsl hcl hs (by omega)
      have hh : readHead (0xd0 :: size ++ count ++ body ++ r) = some (.list l.length (body ++ r)) := by
        simpa [readHead, hc] using this
      rw [readAny, hh]
      simp at hf
      simp [ih fuel r (by omega)]
  · intro l body size count he hb hs hc ih fuel r hf
    cases fuel with
    | zero => simp at hf
    | succ fuel =>
      have hle := Encs.length_le hb
      have := compound_append (w := 1) (mk := .map) (size := [size]) (count := [count]) (body := body) (r := r) rfl rfl
        (by simpa [beNat] using hs) (by simp [beNat]; omega)
      have hh : readHead (0xc1 :: size :: count :: body ++ r) = some (.map l.length (body ++ r)) := by
        simpa [readHead, beNat, hc] using this
      rw [readAny, hh]
      simp at hf
      simp [ih fuel r (by omega)]
  · intro l body size count he hb hsl hcl hs hc ih fuel r hf
    cases fuel with
    | zero => simp at hf
    | succ fuel =>
      have hle := Encs.length_le hb
      have := compound_append (w := 4) (mk := .map) (size := size) (count := count) (body := body) (r := r) hsl hcl hs (by omega)
      have hh : readHead (0xd1 :: size ++ count ++ body ++ r) = some (.map l.length (body ++ r)) := by
        simpa [readHead, hc] using this
      rw [readAny, hh]
      simp at hf
      simp [ih fuel r (by omega)]
  · intro fuel r hf
    cases fuel with
    | zero => simp at hf
    | succ fuel => simp [readMany]
  · intro v l a b h hs ih1 ih2 fuel r hf
    have := Enc.length_pos h
    simp at hf
    cases fuel with
    | zero => omega
    | succ fuel => simp [readMany, ih1 fuel (b ++ r) (by omega), ih2 fuel r (by omega)]

theorem readWire_enc {v : WVal} {bs : List UInt8} (h : Enc v bs) (r : List UInt8) : readWire (bs ++ r) = some (v, r) :=
  read_enc h _ r (by simp; omega)

/-! ## The writer -/

theorem beNat_append (a b : List UInt8) : beNat (a ++ b) = beNat a * 256 ^ b.length + beNat b := by
  have key : ∀ (b : List UInt8) (n : Nat), b.foldl (fun a b => 256 * a + b.toNat) n = n * 256 ^ b.length + beNat b := by
    intro b
    induction b with
    | nil => intro n; simp [beNat]
    | cons x b ih =>
      intro n
      have h1 := ih (256 * n + x.toNat)
      have h2 := ih x.toNat
      simp only [List.foldl_cons, beNat, List.length_cons] at *
      simp only [Nat.mul_zero, Nat.zero_add]
      rw [h1, h2, Nat.pow_succ, Nat.add_mul]
      have : 256 * n * 256 ^ b.length = n * (256 ^ b.length * 256) := by
        rw [Nat.mul_comm 256 n, Nat.mul_assoc, Nat.mul_comm 256]
      omega
  rw [beNat, List.foldl_append]
  exact key b _

theorem be32_length (n : Nat) : (be32 n).length = 4 := rfl

theorem beNat_be32' (n : Nat) : beNat (be32 n) = n % 2 ^ 32 := by
  simp [be32, beNat]
  omega

theorem beNat_be32 {n : Nat} (h : n < 2 ^ 32) : beNat (be32 n) = n := by
  rw [beNat_be32', Nat.mod_eq_of_lt h]

theorem be64_length (n : Nat) : (be64 n).length = 8 := rfl

theorem beNat_be64 {n : Nat} (h : n < 2 ^ 64) : beNat (be64 n) = n := by
  rw [be64, beNat_append, beNat_be32', beNat_be32', be32_length]
  omega

theorem toInt32_signed (n : Int32) : n.toInt = signedOf 32 n.toUInt32.toNat := by
  have h := BitVec.toInt_eq_toNat_cond n.toBitVec
  have e1 : n.toInt = n.toBitVec.toInt := rfl
  have e2 : n.toUInt32.toNat = n.toBitVec.toNat := rfl
  rw [e1, e2, h, signedOf]
  split <;> split <;> omega

theorem toInt64_signed (n : Int64) : n.toInt = signedOf 64 n.toUInt64.toNat := by
  have h := BitVec.toInt_eq_toNat_cond n.toBitVec
  have e1 : n.toInt = n.toBitVec.toInt := rfl
  have e2 : n.toUInt64.toNat = n.toBitVec.toNat := rfl
  rw [e1, e2, h, signedOf]
  split <;> split <;> omega

/-- A small number keeps its value in one octet. -/
theorem signed_low {bits k : Nat} (hb : bits = 32 ∨ bits = 64) (hk : k < 2 ^ bits) (h1 : -128 ≤ signedOf bits k)
    (h2 : signedOf bits k < 128) : signedOf bits k = signedOf 8 (UInt8.ofNat k).toNat := by
  rcases hb with rfl | rfl <;> simp [signedOf] at * <;> split <;> split <;> omega

mutual
theorem marshal_enc : ∀ (v : WVal), Paired v → (marshal v).length < 2 ^ 32 → Enc v (marshal v)
  | .null, _, _ => by simpa [marshal] using Enc.null
  | .bool b, _, _ => by simpa [marshal] using Enc.bool (b := b)
  | .ubyte n, _, _ => by simpa [marshal] using Enc.ubyte (n := n)
  | .uint n, _, _ => by
    simp only [marshal]
    split
    · next h => subst h; exact .uint0
    · split
      · next h => exact .uint8 (by simp; omega)
      · exact .uint rfl (by rw [beNat_be32]; exact n.toNat_lt)
  | .ulong n, _, _ => by
    simp only [marshal]
    split
    · next h => subst h; exact .ulong0
    · split
      · next h => exact .ulong8 (by simp; omega)
      · exact .ulong rfl (by rw [beNat_be64]; exact n.toNat_lt)
  | .int n, _, _ => by
    simp only [marshal]
    have hs := toInt32_signed n
    have hn := n.toUInt32.toNat_lt
    split
    · next h => exact .int8 (by rw [hs] at h ⊢; exact signed_low (.inl rfl) hn h.1 h.2)
    · exact .int rfl (by rw [beNat_be32 hn]; exact hs)
  | .long n, _, _ => by
    simp only [marshal]
    have hs := toInt64_signed n
    have hn := n.toUInt64.toNat_lt
    split
    · next h => exact .long8 (by rw [hs] at h ⊢; exact signed_low (.inr rfl) hn h.1 h.2)
    · exact .long rfl (by rw [beNat_be64 hn]; exact hs)
  | .time n, _, _ => by
    simp only [marshal]
    exact .time rfl (by rw [beNat_be64 n.toUInt64.toNat_lt]; exact toInt64_signed n)
  | .bin bs, _, hl => by
    simp only [marshal, writeOctets] at *
    split
    · next h => exact .bin8 (by simp; omega)
    · next h => rw [if_neg h] at hl; simp [be32_length] at hl; exact .bin32 rfl (beNat_be32 (by omega))
  | .str s, _, hl => by
    simp only [marshal, writeOctets] at *
    split
    · next h => exact .str8 (by simp; omega)
    · next h => rw [if_neg h] at hl; simp [be32_length] at hl; exact .str32 rfl (beNat_be32 (by omega))
  | .sym s, _, hl => by
    simp only [marshal, writeOctets] at *
    split
    · next h => exact .sym8 (by simp; omega)
    · next h => rw [if_neg h] at hl; simp [be32_length] at hl; exact .sym32 rfl (beNat_be32 (by omega))
  | .list [], _, _ => by simpa [marshal] using Enc.list0
  | .list (v :: l), hp, hl => by
    simp only [Paired, PairedAll] at hp
    simp only [marshal] at hl ⊢
    simp [be32_length] at hl
    have h1 := marshal_enc v hp.1 (by omega)
    have h2 := marshalAll_enc l hp.2 (by omega)
    have := Encs.length_le (Encs.cons h1 h2)
    simp at this
    exact .list32 (.cons h1 h2) rfl rfl (beNat_be32 (by simp; omega)) (beNat_be32 (by omega))
  | .map l, hp, hl => by
    simp only [Paired] at hp
    simp only [marshal] at hl ⊢
    simp [be32_length] at hl
    have h2 := marshalAll_enc l hp.2 (by omega)
    have := Encs.length_le h2
    exact .map32 hp.1 h2 rfl rfl (beNat_be32 (by omega)) (beNat_be32 (by omega))
theorem marshalAll_enc : ∀ (l : List WVal), PairedAll l → (marshalAll l).length < 2 ^ 32 → Encs l (marshalAll l)
  | [], _, _ => by simpa [marshalAll] using Encs.nil
  | v :: l, hp, hl => by
    simp only [PairedAll] at hp
    simp only [marshalAll] at hl ⊢
    simp at hl
    exact .cons (marshal_enc v hp.1 (by omega)) (marshalAll_enc l hp.2 (by omega))
end

end Verif.Proofs
