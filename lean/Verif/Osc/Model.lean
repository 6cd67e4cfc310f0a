import Verif.Outcome

/-!
# OSC packets and the decoder for scalar values

`/repo/3rd/include/oscpkt/oscpkt.hh` (the reader of OSC packets that is part of the repository) and
`/repo/src/librcl/scalar_osc_decoder.cpp`.

Conventions and simplifications: a byte is a `UInt8`; a pointer into the packet is the list of bytes from there to the end of
the message or packet.  The size of every message and of its copy in memory is a multiple of four and the copy starts at an
aligned address, so the distance of a pointer to the next multiple of four is the number of remaining bytes modulo four.
Error codes are not distinguished: the error state of the reader is `throw .invalidArgument` (no C++ exception is thrown);
reading outside the packet is `ub`.  Time tags are not modelled, they are not used.  A floating-point value is its bit
pattern.
-/

namespace Visr.Osc

/-- `bytes2pod`: `oscpkt.hh` lines 131-141. The bytes are the big-endian notation of the number. -/
def number : List UInt8 → Nat
  | [] => 0
  | b :: bs => b.toNat * 256 ^ bs.length + number bs

/-- `bytes2pod` for a type of `n` bytes at the given pointer: `oscpkt.hh` lines 131-141. -/
def pod (n : Nat) (s : List UInt8) : Outcome Nat := if s.length < n then .ub else .ok (number (s.take n))

/-- The text up to the next zero byte and the pointer behind this byte; `none` if there is no zero byte (`memchr`):
`oscpkt.hh` lines 368, 374 and 450. -/
def cstring (s : List UInt8) : Option (List UInt8 × List UInt8) :=
  match s.dropWhile (· ≠ 0) with
  | [] => none
  | _ :: r => some (s.takeWhile (· ≠ 0), r)

/-- `isZeroPaddingCorrect` and `ceil4` of a pointer: `oscpkt.hh` lines 107-118. The pointer to the next multiple of four, if
the bytes up to there are zero. -/
def aligned (s : List UInt8) : Option (List UInt8) :=
  if (s.take (s.length % 4)).all (· = 0) then some (s.drop (s.length % 4)) else none

/-- `ceil4` of a size: `oscpkt.hh` line 108. -/
def ceil4 (n : Nat) : Nat := (n + 3) / 4 * 4

/-- The part of `getArgSize` that finds the number of bytes of an argument: `oscpkt.hh` lines 440-462. The size of a blob is
computed with 32 bits (line 456). -/
def rawSize (tag : UInt8) (p : List UInt8) : Outcome Nat :=
  if tag = 84 ∨ tag = 70 then .ok 0 -- 'T', 'F'
  else if tag = 105 ∨ tag = 102 then .ok 4 -- 'i', 'f'
  else if tag = 104 ∨ tag = 100 then .ok 8 -- 'h', 'd'
  else if tag = 115 then -- 's'
    match cstring p with
    | none => .throw .invalidArgument
    | some (s, _) => .ok (s.length + 1)
  else if tag = 98 then -- 'b'
    if p = [] then .throw .invalidArgument
    else do
      let n ← pod 4 p
      .ok ((4 + n) % 2 ^ 32)
  else .throw .invalidArgument

/-- `getArgSize`: `oscpkt.hh` lines 440-468. -/
def getArgSize (tag : UInt8) (p : List UInt8) : Outcome Nat := do
  let sz ← rawSize tag p
  if sz > p.length then .throw .invalidArgument
  else
    match aligned (p.drop sz) with
    | none => .throw .invalidArgument
    | some _ => .ok sz

/-- An argument of a message: type tag, size, and pointer to its first byte. `oscpkt.hh` lines 221-222. -/
structure Arg where
  tag : UInt8
  size : Nat
  start : List UInt8
  deriving DecidableEq

/-- The loop over the type tags: `oscpkt.hh` lines 379-389. -/
def readArgs : List UInt8 → List UInt8 → Outcome (List Arg)
  | [], p => if p = [] then .ok [] else .throw .invalidArgument
  | t :: ts, p => do
    let len ← getArgSize t p
    let rest ← readArgs ts (p.drop (ceil4 len))
    .ok (⟨t, len, p⟩ :: rest)

/-- A message. `oscpkt.hh` lines 218-224. -/
structure Message where
  address : List UInt8
  args : List Arg
  deriving DecidableEq

/-- `Message::buildFromRawData`: `oscpkt.hh` lines 364-390. -/
def message (s : List UInt8) : Outcome Message :=
  match cstring s with
  | none => .throw .invalidArgument
  | some (address, r) =>
    match aligned r with
    | none => .throw .invalidArgument
    | some r =>
      if address.head? ≠ some 47 then .throw .invalidArgument -- '/'
      else
        match cstring r with
        | none => .throw .invalidArgument
        | some (tags, r) =>
          match aligned r with
          | none => .throw .invalidArgument
          | some r =>
            match tags with
            | [] => .throw .invalidArgument
            | c :: tags =>
              if c ≠ 44 then .throw .invalidArgument -- ','
              else do
                let args ← readArgs tags r
                .ok ⟨address, args⟩

/-- `#bundle` and a zero byte: `oscpkt.hh` line 540. -/
def bundleTag : List UInt8 := [35, 98, 117, 110, 100, 108, 101, 0]

mutual

/-- `PacketReader::parse`: `oscpkt.hh` lines 533-560. The messages in the order in which they are appended. -/
def parse (s : List UInt8) : Outcome (List Message) :=
  if s = [] then .ok []
  else if s.head? = some 35 then -- '#'
    if s.length ≥ 20 ∧ s.take 8 = bundleTag then elements (s.drop 16)
    else .throw .invalidArgument
  else do
    let m ← message s
    .ok [m]
termination_by s.length
decreasing_by rw [List.length_drop]; omega

/-- The loop over the elements of a bundle: `oscpkt.hh` lines 543-551. -/
def elements (s : List UInt8) : Outcome (List Message) :=
  match s with
  | b0 :: b1 :: b2 :: b3 :: r =>
    let sz := number [b0, b1, b2, b3]
    if sz % 4 ≠ 0 ∨ sz > r.length then .throw .invalidArgument
    else do
      let ms ← parse (r.take sz)
      if r.drop sz = [] then .ok ms
      else do
        let ms' ← elements (r.drop sz)
        .ok (ms ++ ms')
  | _ => .ub -- fewer than four bytes: the size would be read outside the packet
termination_by s.length
decreasing_by all_goals simp; try omega

end

/-- `PacketReader::init`: `oscpkt.hh` lines 512-518. -/
def packet (s : List UInt8) : Outcome (List Message) := if s.length % 4 = 0 then parse s else .throw .invalidArgument

/-- All messages that `PacketReader::popMessage` returns after `init`: `oscpkt.hh` lines 521-524. There are none in the case of
an error. -/
def messages (s : List UInt8) : Outcome (List Message) :=
  match packet s with
  | .ok ms => .ok ms
  | .throw _ => .ok []
  | .ub => .ub

/-! ### Arguments -/

/-- `ArgReader::popPod` for the first argument: `oscpkt.hh` lines 307-313 and 315-319. If there is no argument or it has
another type, the value is zero. -/
def popPod (tag : UInt8) (n : Nat) (m : Message) : Outcome Nat :=
  match m.args with
  | [] => .ok 0
  | a :: _ => if a.tag = tag then pod n a.start else .ok 0

/-- The value of a 32-bit pattern as a signed number. -/
def signed32 (n : Nat) : Int := if n < 2 ^ 31 then n else (n : Int) - 2 ^ 32

/-- `popInt32`: `oscpkt.hh` line 254. -/
def popInt32 (m : Message) : Outcome Int := do
  let n ← popPod 105 4 m
  .ok (signed32 n)

/-- `popFloat`: `oscpkt.hh` line 258. -/
def popFloat (m : Message) : Outcome Nat := popPod 102 4 m

/-- `popDouble`: `oscpkt.hh` line 260. -/
def popDouble (m : Message) : Outcome Nat := popPod 100 8 m

/-- `popBool`: `oscpkt.hh` lines 277-285. -/
def popBool (m : Message) : Outcome Bool :=
  match m.args with
  | [] => .ok false
  | a :: _ => .ok (a.tag = 84)

/-! ### The component -/

/-- The supported types of values: `scalar_osc_decoder.cpp` lines 33-59. -/
inductive Kind where
  | bool
  | int
  | uint
  | float
  | double
  deriving DecidableEq

/-- A value at the output of the component. Floating-point numbers are bit patterns. -/
inductive Value where
  | bool (b : Bool)
  | int (i : Int)
  | uint (n : Nat)
  | float (bits : Nat)
  | double (bits : Nat)
  deriving DecidableEq

/-- `ScalarOscDecoder::setup`: `scalar_osc_decoder.cpp` lines 33-59. `status( Error )` throws
(`/repo/src/libvisr/impl/component_implementation.cpp` lines 73-82). -/
def setup (dataType : String) : Outcome Kind :=
  if dataType = "bool" then .ok .bool
  else if dataType = "int" then .ok .int
  else if dataType = "uint" then .ok .uint
  else if dataType = "float" then .ok .float
  else if dataType = "double" then .ok .double
  else .throw .runtimeError

/-- The value of one message, `none` for the negative value that makes the component report an error (which is thrown as an
exception): `scalar_osc_decoder.cpp` lines 73-108. -/
def value (k : Kind) (m : Message) : Outcome (Option Value) :=
  match k with
  | .bool => do let v ← popBool m; .ok (some (.bool v))
  | .int => do let v ← popInt32 m; .ok (some (.int v))
  | .uint => do
    let v ← popInt32 m
    if v < 0 then .ok none else .ok (some (.uint v.toNat))
  | .float => do let v ← popFloat m; .ok (some (.float v))
  | .double => do let v ← popDouble m; .ok (some (.double v))

/-- The loop over the messages of a packet: `scalar_osc_decoder.cpp` lines 71-109. The exception for a negative value leaves
the loop (line 91 and 111). -/
def values (k : Kind) : List Message → Outcome (List Value)
  | [] => .ok []
  | m :: ms => do
    match ← value k m with
    | none => .ok []
    | some v =>
      let vs ← values k ms
      .ok (v :: vs)

/-- One packet: `scalar_osc_decoder.cpp` lines 64-116. -/
def decode (k : Kind) (s : List UInt8) : Outcome (List Value) := do
  let ms ← messages s
  values k ms

/-- `ScalarOscDecoder::process`: `scalar_osc_decoder.cpp` lines 61-117. All waiting packets are decoded; the result is what is
appended to the output queue. -/
def process (k : Kind) : List (List UInt8) → Outcome (List Value)
  | [] => .ok []
  | s :: ss => do
    let vs ← decode k s
    let rest ← process k ss
    .ok (vs ++ rest)

end Visr.Osc
