import Verif.Outcome

/-!
# `ChannelRange`, `ChannelList` and `IndexSequence`

Models `src/libvisr/channel_list.{hpp,cpp}` and `src/librbbl/index_sequence.cpp`.
`std::size_t` start and end values are natural numbers, `std::ptrdiff_t` steps are integers. 64-bit wrap-around
of `mEnd - mStart` is not modelled (it needs indices of at least 2^63). The 32-bit `int` arithmetic of the
`IndexSequence` parser *is* modelled, because it is reachable with short strings.
-/

set_option linter.unusedVariables false

namespace Visr.ChannelList
open Visr

/-- The data members of `ChannelRange` (`channel_list.hpp:217-269`). -/
structure Range where
  start : Nat
  stop : Nat
  step : Int
  deriving DecidableEq, Repr

/-- `ChannelRange::isValid( start, end, stride )`, `channel_list.cpp:49-57`. -/
def isValid (start stop : Nat) (step : Int) : Bool :=
  if step = 0 then false
  else if step > 0 then decide (stop ≥ start) else decide (stop ≤ start)

/-- `ChannelRange::ChannelRange( start, end, step )`, `channel_list.cpp:24-33`. -/
def Range.mk? (start stop : Nat) (step : Int) : Outcome Range :=
  if isValid start stop step then .ok ⟨start, stop, step⟩ else .throw .invalidArgument

/-- `ChannelRange::set`, `channel_list.cpp:35-44`: new state next to the outcome. -/
def Range.set (r : Range) (start stop : Nat) (step : Int) : Range × Outcome Unit :=
  if isValid start stop step then (⟨start, stop, step⟩, .ok ()) else (r, .throw .invalidArgument)

/-- `ChannelRange::size`, `channel_list.cpp:64-77`. C++ integer division truncates towards zero (`tdiv`, `tmod`).
The cast of the result to `IndexType` is `Int.toNat`; for valid ranges the value is never negative. -/
def Range.size (r : Range) : Outcome Nat :=
  if isValid r.start r.stop r.step then
    let diff : Int := (r.stop : Int) - r.start
    let ceil := diff.tdiv r.step + (if diff.tmod r.step = 0 then 0 else 1)
    .ok ceil.toNat
  else .throw .invalidArgument

/-- `ChannelRange::operator[]`, `channel_list.cpp:89-93`, before the cast to the unsigned index type. -/
def Range.get (r : Range) (idx : Nat) : Int := r.step * idx + r.start

/-- `ChannelRange::at`, `channel_list.cpp:79-87`. -/
def Range.at (r : Range) (idx : Nat) : Outcome Int :=
  match r.size with
  | .ok sz => if idx ≥ sz then .throw .outOfRange else .ok (r.get idx)
  | .throw e => .throw e
  | .ub => .ub

/-- The loop of `ChannelList::appendRange`, `channel_list.cpp:165-175`: push the running value `sz` times. -/
def appendLoop (step : Int) : Nat → Int → List Int
  | 0, _ => []
  | sz + 1, run => run :: appendLoop step sz (run + step)

/-- `ChannelList::ChannelList( ChannelRange const & )`, `channel_list.cpp:114-119`. -/
def ofRange (r : Range) : Outcome (List Int) :=
  match r.size with
  | .ok sz => .ok (appendLoop r.step sz r.start)
  | .throw e => .throw e
  | .ub => .ub

/-! ## Printing -/

/-- The inner `while` of `operator<<`, `channel_list.cpp:196-201`: starting behind `currVal`, count how many further
elements continue the run with increment `diff`. Returns the last value of the run and the remaining list. -/
def scanRun (diff : Int) : Int → List Nat → Int × Nat × List Nat
  | cur, [] => (cur, 0, [])
  | cur, x :: xs =>
    if (x : Int) - cur = diff then
      let sr := scanRun diff x xs
      (sr.1, sr.2.1 + 1, sr.2.2)
    else (cur, 0, x :: xs)

theorem scanRun_length (diff cur : Int) (xs : List Nat) : (scanRun diff cur xs).2.2.length ≤ xs.length := by
  induction xs generalizing cur with
  | nil => simp [scanRun]
  | cons x xs ih =>
    unfold scanRun
    split
    · have := ih x
      simp only [List.length_cons]; omega
    · simp

/-- Characters printed by `ostream << std::size_t`: decimal digits without leading zeros. -/
def printNat (n : Nat) : List Char :=
  if n < 10 then [Nat.digitChar n] else printNat (n / 10) ++ [Nat.digitChar (n % 10)]

/-- Characters printed by `ostream << std::ptrdiff_t`. -/
def printInt (i : Int) : List Char :=
  if i < 0 then '-' :: printNat i.natAbs else printNat i.natAbs

/-- `operator<<( ostream &, ChannelList )`, `channel_list.cpp:182-229`, for the part of the list starting at `runIt`.
The C++ loop dereferences the begin iterator before looking at the end, so an empty list is undefined behaviour. -/
def print : List Nat → Outcome (List Char)
  | [] => .ub
  | [x] => .ok (printNat x)
  | x :: y :: rest =>
    let diff : Int := (y : Int) - x
    let sr := scanRun diff y rest
    -- advanceCounter = sr.2.1 + 1
    if sr.2.1 + 1 ≥ 2 then
      let head := printNat x ++ (if diff ≠ 1 then ':' :: printInt diff else []) ++ (':' :: printInt sr.1)
      match hrest : sr.2.2 with
      | [] => .ok head
      | z :: zs =>
        match print (z :: zs) with
        | .ok s => .ok (head ++ ',' :: s)
        | .throw e => .throw e
        | .ub => .ub
    else
      match print (y :: rest) with
      | .ok s => .ok (printNat x ++ ',' :: s)
      | .throw e => .throw e
      | .ub => .ub
termination_by l => l.length
decreasing_by
  · have h1 : (scanRun diff y rest).2.2.length ≤ rest.length := scanRun_length diff y rest
    have h2 : (scanRun diff y rest).2.2 = z :: zs := hrest
    rw [h2] at h1
    simp only [List.length_cons] at *
    omega
  · simp

/-! ## Parsing (`IndexSequence::IndexSequence( std::string const & )`)

The boost::spirit grammar is `((int_ % ':')[finish] % ',') | eps` with an ASCII space skipper. It is modelled as a
deterministic character-level parser; spirit itself (backtracking of list parsers, attribute handling) is trusted to
implement this grammar. Semantic actions run as soon as their part has matched. -/

/-- Largest and smallest value of the 32-bit `int` used by `qi::int_`. -/
def intMax : Int := 2147483647
def intMin : Int := -2147483648

def inInt (i : Int) : Bool := decide (intMin ≤ i) && decide (i ≤ intMax)

/-- `qi::ascii::space`: the characters skipped between tokens. -/
def isSpace (c : Char) : Bool := c = ' ' || c = '\t' || c = '\n' || c = '\r' || c = '\x0b' || c = '\x0c'

def skipWs : List Char → List Char
  | [] => []
  | c :: cs => if isSpace c then skipWs cs else c :: cs

def digitVal (c : Char) : Nat := c.toNat - '0'.toNat

/-- Read decimal digits; the accumulator is the value so far. Returns value, number of digits, and rest. -/
def readDigits : Nat → List Char → Nat × Nat × List Char
  | acc, [] => (acc, 0, [])
  | acc, c :: cs =>
    if c.isDigit then
      let d := readDigits (acc * 10 + digitVal c) cs
      (d.1, d.2.1 + 1, d.2.2)
    else (acc, 0, c :: cs)

/-- Optional sign of `qi::int_`: `true` for a minus sign. -/
def readSign : List Char → Bool × List Char
  | [] => (false, [])
  | c :: cs => if c = '-' then (true, cs) else if c = '+' then (false, cs) else (false, c :: cs)

/-- `qi::int_` with pre-skip: optional sign, at least one digit, value must fit into 32 bits (else no match). -/
def parseInt (s : List Char) : Option (Int × List Char) :=
  let sg := readSign (skipWs s)
  let d := readDigits 0 sg.2
  let i : Int := if sg.1 then -(d.1 : Int) else d.1
  if d.2.1 = 0 then none else if inInt i then some (i, d.2.2) else none

theorem readDigits_length (acc : Nat) (s : List Char) :
    (readDigits acc s).2.2.length + (readDigits acc s).2.1 = s.length := by
  induction s generalizing acc with
  | nil => simp [readDigits]
  | cons c cs ih =>
    unfold readDigits
    split
    · have := ih (acc * 10 + digitVal c)
      simp only [List.length_cons]; omega
    · simp

theorem skipWs_length (s : List Char) : (skipWs s).length ≤ s.length := by
  induction s with
  | nil => simp [skipWs]
  | cons c cs ih => unfold skipWs; split <;> simp <;> omega

theorem readSign_length (s : List Char) : (readSign s).2.length ≤ s.length := by
  cases s with
  | nil => simp [readSign]
  | cons c cs => simp only [readSign]; split <;> (try split) <;> simp

theorem parseInt_length {s : List Char} {i : Int} {r : List Char} (h : parseInt s = some (i, r)) :
    r.length < s.length := by
  have h1 := skipWs_length s
  have h2 := readSign_length (skipWs s)
  have h3 := readDigits_length 0 (readSign (skipWs s)).2
  unfold parseInt at h
  dsimp only at h
  generalize (if (readSign (skipWs s)).1 = true then -((readDigits 0 (readSign (skipWs s)).2).1 : Int)
    else ((readDigits 0 (readSign (skipWs s)).2).1 : Int)) = v at h
  split at h
  · simp at h
  · split at h
    · simp only [Option.some.injEq, Prod.mk.injEq] at h
      rw [← h.2]; omega
    · simp at h

/-- `int_ % ':'`: the values of one colon-separated group and the rest of the input. A colon that is not followed by
an integer is not consumed (spirit list parsers backtrack over the last separator). -/
def parseGroup (s : List Char) : Option (List Int × List Char) :=
  match h : parseInt s with
  | none => none
  | some (i, r) =>
    match hw : skipWs r with
    | ':' :: r' =>
      match parseGroup r' with
      | some (is, r'') => some (i :: is, r'')
      | none => some ([i], r)
    | _ => some ([i], r)
termination_by s.length
decreasing_by
  have h1 := parseInt_length h
  have h2 := skipWs_length r
  rw [hw] at h2
  simp only [List.length_cons] at h2
  omega

/-- `while( val <= end ) { push_back( val ); val += inc; }` with 32-bit signed `val` (`index_sequence.cpp:88-95`):
signed overflow of `val += inc` is undefined behaviour. Requires `0 < inc`. -/
def upLoop (inc : Nat) (h : 0 < inc) (val stop : Int) : Outcome (List Int) :=
  if hv : val ≤ stop then
    if inInt (val + inc) then
      match upLoop inc h (val + inc) stop with
      | .ok l => .ok (val :: l)
      | .throw e => .throw e
      | .ub => .ub
    else .ub
  else .ok []
termination_by (stop - val + 1).toNat
decreasing_by omega

/-- `while( val >= end ) { push_back( val ); val += inc; }`, `index_sequence.cpp:97-104`, with `dec = -inc > 0`. -/
def downLoop (dec : Nat) (h : 0 < dec) (val stop : Int) : Outcome (List Int) :=
  if hv : val ≥ stop then
    if inInt (val - dec) then
      match downLoop dec h (val - dec) stop with
      | .ok l => .ok (val :: l)
      | .throw e => .throw e
      | .ub => .ub
    else .ub
  else .ok []
termination_by (val - stop + 1).toNat
decreasing_by omega

/-- `while( val <= end ) push_back( val++ )` on unsigned indices, `index_sequence.cpp:69-73` (`IndexType` is
`unsigned int`/`size_t`, values stay far below wrap-around because `end` is an `int`). -/
def unitLoop (val stop : Nat) : List Int :=
  if val ≤ stop then (val : Int) :: unitLoop (val + 1) stop else []
termination_by stop + 1 - val

/-- `ParseState::finish`, `index_sequence.cpp:43-112`: expand one group. `throw("...")` throws a C string. -/
def expandGroup : List Int → Outcome (List Int)
  | [] => .throw .invalidArgument
  | [v] => if v < 0 then .throw .cString else .ok [v]
  | [start, stop] =>
    if start < 0 ∨ stop < 0 then .throw .cString else .ok (unitLoop start.toNat stop.toNat)
  | [start, inc, stop] =>
    if start < 0 ∨ stop < 0 then .throw .cString
    else if h0 : inc = 0 then .throw .cString
    else if h : inc > 0 then upLoop inc.toNat (by omega) start stop
    else downLoop (-inc).toNat (by omega) start stop
  | _ => .throw .invalidArgument

theorem parseGroup_length {s : List Char} {is : List Int} {r : List Char} (h : parseGroup s = some (is, r)) :
    r.length < s.length := by
  induction hn : s.length using Nat.strongRecOn generalizing s is r with
  | ind n ih =>
    subst hn
    rw [parseGroup] at h
    split at h
    · simp at h
    · rename_i i r1 h1
      have l1 := parseInt_length h1
      split at h
      · rename_i r' hw
        have hw2 := skipWs_length r1
        rw [hw] at hw2
        simp only [List.length_cons] at hw2
        split at h
        · rename_i is' r'' h2
          simp only [Option.some.injEq, Prod.mk.injEq] at h
          have := ih r'.length (by omega) h2 rfl
          rw [← h.2]; omega
        · simp only [Option.some.injEq, Prod.mk.injEq] at h
          rw [← h.2]; omega
      · simp only [Option.some.injEq, Prod.mk.injEq] at h
        rw [← h.2]; omega

/-- `group[finish] % ','`: contents collected so far and the rest of the input. -/
def parseGroups (s : List Char) : Option (Outcome (List Int) × List Char) :=
  match h : parseGroup s with
  | none => none
  | some (g, r) =>
    match expandGroup g with
    | .ok l =>
      match hw : skipWs r with
      | ',' :: r' =>
        match parseGroups r' with
        | some (o, r'') => some (o.map (l ++ ·), r'')
        | none => some (.ok l, r)
      | _ => some (.ok l, r)
    | .throw e => some (.throw e, r)
    | .ub => some (.ub, r)
termination_by s.length
decreasing_by
  have h1 := parseGroup_length h
  have h2 := skipWs_length r
  rw [hw] at h2
  simp only [List.length_cons] at h2
  omega

/-- `IndexSequence::IndexSequence( std::string const & )`, `index_sequence.cpp:24-131`: alternative with `eps`,
post-skip, then the "everything consumed" check. -/
def parse (s : List Char) : Outcome (List Int) :=
  match parseGroups s with
  | none => if skipWs s = [] then .ok [] else .throw .invalidArgument
  | some (.ok l, r) => if skipWs r = [] then .ok l else .throw .invalidArgument
  | some (.throw e, _) => .throw e
  | some (.ub, _) => .ub

end Visr.ChannelList
