/-!
# Values of the AMQP 1.0 type system

The values an AMQP peer can write for the parts of a message vanflow uses, and octet strings read as numbers. Shared by the
standard's encodings (`Verif.Spec.Amqp`) and the reader and writer of the amqp library (`Verif.Model.Wire`).
-/
namespace Verif

/-- AMQP values (AMQP 1.0, part 1, section 1.6; the types vanflow can meet). A map is its keys and values in turn, as the standard
lays it out (1.6.23). Floats, decimals, char, uuid, ushort/short/byte, arrays and described values are left out. -/
inductive WVal where
  | null
  | bool (b : Bool)
  | ubyte (n : UInt8)
  | uint (n : UInt32)
  | ulong (n : UInt64)
  | int (n : Int32)
  | long (n : Int64)
  | time (ms : Int64)
  | bin (bs : List UInt8)
  | str (s : String)
  | sym (s : String)
  | list (l : List WVal)
  | map (l : List WVal)

/-- Octets, most significant first, as a number. -/
def beNat (bs : List UInt8) : Nat := bs.foldl (fun a b => 256 * a + b.toNat) 0

/-- A number below `2 ^ bits` read as two's complement. -/
def signedOf (bits n : Nat) : Int := if n < 2 ^ (bits - 1) then n else (n : Int) - 2 ^ bits

/-- The UTF-8 octets of a string. -/
def utf8 (s : String) : List UInt8 := s.toUTF8.data.toList

end Verif
