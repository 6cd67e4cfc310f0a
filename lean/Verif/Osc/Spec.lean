import Verif.Osc.Model

/-!
# The format of OSC packets

After the OSC 1.0 specification: strings are terminated by zeros up to a multiple of four bytes, numbers are big-endian,
a message is an address, a comma with the type tags, and the arguments; a bundle is the string `#bundle`, a time tag of eight
bytes, and elements preceded by their size.
-/

namespace Visr.Osc

/-- Big-endian notation of a number with `w` bytes. -/
def toBytes : Nat → Nat → List UInt8
  | 0, _ => []
  | w + 1, n => UInt8.ofNat (n / 256 ^ w) :: toBytes w n

/-- A string with one to four zeros up to a multiple of four. -/
def oscString (s : List UInt8) : List UInt8 := s ++ List.replicate (4 - s.length % 4) 0

/-- Bytes with up to three zeros up to a multiple of four. -/
def padTo4 (s : List UInt8) : List UInt8 := s ++ List.replicate ((4 - s.length % 4) % 4) 0

/-- The arguments of messages. -/
inductive Argument where
  | yes
  | no
  | int32 (i : Int)
  | int64 (i : Int)
  | float (bits : Nat)
  | double (bits : Nat)
  | str (s : List UInt8)
  | blob (b : List UInt8)

/-- The type tags `T`, `F`, `i`, `h`, `f`, `d`, `s`, `b`. -/
def Argument.tag : Argument → UInt8
  | .yes => 84
  | .no => 70
  | .int32 _ => 105
  | .int64 _ => 104
  | .float _ => 102
  | .double _ => 100
  | .str _ => 115
  | .blob _ => 98

/-- The bytes of an argument; negative numbers in two's complement. -/
def Argument.bytes : Argument → List UInt8
  | .yes => []
  | .no => []
  | .int32 i => toBytes 4 (i % 2 ^ 32).toNat
  | .int64 i => toBytes 8 (i % 2 ^ 64).toNat
  | .float n => toBytes 4 n
  | .double n => toBytes 8 n
  | .str s => oscString s
  | .blob b => toBytes 4 b.length ++ padTo4 b

/-- The values are in the range of their type. -/
def Argument.Ok : Argument → Prop
  | .int32 i => -2 ^ 31 ≤ i ∧ i < 2 ^ 31
  | .int64 i => -2 ^ 63 ≤ i ∧ i < 2 ^ 63
  | .float n => n < 2 ^ 32
  | .double n => n < 2 ^ 64
  | .str s => 0 ∉ s
  | .blob b => b.length < 2 ^ 32 - 4
  | _ => True

/-- A message as it is sent. -/
structure Sent where
  address : List UInt8
  args : List Argument

/-- The bytes of a message. -/
def Sent.bytes (m : Sent) : List UInt8 :=
  oscString m.address ++ (oscString (44 :: m.args.map Argument.tag) ++ m.args.flatMap Argument.bytes)

/-- The address is a string that begins with a slash. -/
structure Sent.Ok (m : Sent) : Prop where
  slash : m.address.head? = some 47
  nozero : 0 ∉ m.address
  args : ∀ a ∈ m.args, a.Ok

/-- Packets and the elements of bundles. -/
inductive Part where
  | packet
  | elements

/-- The bytes of a packet that contains these messages, in this order. Packets without content are included because an element
of size zero stands for an empty bundle. -/
inductive Wire : Part → List UInt8 → List Sent → Prop
  | empty : Wire .packet [] []
  | message (m : Sent) : m.Ok → Wire .packet m.bytes [m]
  | bundle (time es ms) : time.length = 8 → Wire .elements es ms → Wire .packet (bundleTag ++ time ++ es) ms
  | last (s ms) : Wire .packet s ms → s.length < 2 ^ 32 → Wire .elements (toBytes 4 s.length ++ s) ms
  | cons (s ms es ms') : Wire .packet s ms → s.length < 2 ^ 32 → Wire .elements es ms' →
      Wire .elements (toBytes 4 s.length ++ s ++ es) (ms ++ ms')

/-- The value that a message stands for: that of its first argument if this has the right type. -/
def Sent.value (k : Kind) (m : Sent) : Option Value :=
  match k, m.args with
  | .bool, .yes :: _ => some (.bool true)
  | .bool, .no :: _ => some (.bool false)
  | .int, .int32 i :: _ => some (.int i)
  | .uint, .int32 i :: _ => if 0 ≤ i then some (.uint i.toNat) else none
  | .float, .float n :: _ => some (.float n)
  | .double, .double n :: _ => some (.double n)
  | _, _ => none

/-- Zero of the type. -/
def zero : Kind → Value
  | .bool => .bool false
  | .int => .int 0
  | .uint => .uint 0
  | .float => .float 0
  | .double => .double 0

/-- A negative number for an unsigned value. -/
def Sent.negative (k : Kind) (m : Sent) : Bool :=
  match k, m.args with
  | .uint, .int32 i :: _ => i < 0
  | _, _ => false

end Visr.Osc
