import Verif.Dec

/-!
# semver 1.0.23 (not in /repo): parsing and ordering

Used by `migrate` (`/repo/src/contract.rs` 323-325).
-/
namespace Ica.Semver

/-- `semver::Version`: the numbers and the dot-separated segments of the pre-release and build parts
(an empty part is `[]`). -/
structure Version where
  major : Nat
  minor : Nat
  patch : Nat
  pre : List (List Char)
  build : List (List Char)
  deriving DecidableEq

/-- `u64::MAX + 1`. -/
def u64Max : Nat := 18446744073709551616

/-- Characters allowed in identifiers besides digits. -/
def isNonDigit (c : Char) : Bool :=
  (65 ≤ c.toNat && c.toNat ≤ 90) || (97 ≤ c.toNat && c.toNat ≤ 122) || c == '-'

/-- The longest prefix of digits and the rest. -/
def spanDigits : List Char → List Char × List Char
  | [] => ([], [])
  | c :: cs => if isDigit c then ((c :: (spanDigits cs).1), (spanDigits cs).2) else ([], c :: cs)

/-- The longest prefix of identifier characters and the rest. -/
def spanIdent : List Char → List Char × List Char
  | [] => ([], [])
  | c :: cs =>
    if isDigit c || isNonDigit c then ((c :: (spanIdent cs).1), (spanIdent cs).2) else ([], c :: cs)

/-- `numeric_identifier`: at least one digit, no leading zero, fits `u64`. -/
def numeric (cs : List Char) : Option (Nat × List Char) :=
  match spanDigits cs with
  | ([], _) => none
  | (d :: ds, rest) =>
    if d = '0' ∧ ds ≠ [] then none
    else
      match parseDigits 0 (d :: ds) with
      | some n => if n < u64Max then some (n, rest) else none
      | none => none

/-- `dot`. -/
def dot : List Char → Option (List Char)
  | '.' :: cs => some cs
  | _ => none

/-- `identifier`: nonempty segments separated by dots; pre-release segments made of digits have no leading
zero. `fuel` bounds the number of segments. -/
def segments (isPre : Bool) : Nat → List Char → Option (List (List Char) × List Char)
  | 0, _ => none
  | f + 1, cs =>
    match spanIdent cs with
    | ([], _) => none
    | (s :: ss, rest) =>
      if isPre ∧ (s :: ss).all isDigit ∧ ss ≠ [] ∧ s = '0' then none
      else
        match rest with
        | '.' :: rest' =>
          match segments isPre f rest' with
          | some (segs, r) => some ((s :: ss) :: segs, r)
          | none => none
        | _ => some ([s :: ss], rest)

/-- A part introduced by `mark` (`-` before the pre-release, `+` before the build metadata), empty if the mark is
absent. -/
def optional (mark : Char) (isPre : Bool) (t : List Char) : Option (List (List Char) × List Char) :=
  if t.head? = some mark then segments isPre (t.tail.length + 1) t.tail else some ([], t)

/-- `Version::parse`. -/
def parse (s : String) : Option Version :=
  match numeric s.toList with
  | none => none
  | some (major, t) =>
  match dot t with
  | none => none
  | some t =>
  match numeric t with
  | none => none
  | some (minor, t) =>
  match dot t with
  | none => none
  | some t =>
  match numeric t with
  | none => none
  | some (patch, t) =>
  match optional '-' true t with
  | none => none
  | some (pre, t) =>
  match optional '+' false t with
  | none => none
  | some (build, t) =>
  if t = [] then some ⟨major, minor, patch, pre, build⟩ else none

/-- `str` comparison of ASCII strings (by bytes, which for ASCII is by code points). -/
def cmpChars : List Char → List Char → Ordering
  | [], [] => .eq
  | [], _ :: _ => .lt
  | _ :: _, [] => .gt
  | a :: as, b :: bs =>
    if a.toNat < b.toNat then .lt else if b.toNat < a.toNat then .gt else cmpChars as bs

/-- `usize` comparison. -/
def cmpNat (a b : Nat) : Ordering := if a < b then .lt else if b < a then .gt else .eq

/-- One pre-release segment against another. -/
def cmpPreSeg (a b : List Char) : Ordering :=
  match a.all isDigit, b.all isDigit with
  | false, true => .gt
  | true, false => .lt
  | false, false => cmpChars a b
  | true, true => (cmpNat a.length b.length).then (cmpChars a b)

/-- `trim_start_matches('0')`. -/
def trimStart (cs : List Char) : List Char := cs.dropWhile (· == '0')

/-- One build segment against another. -/
def cmpBuildSeg (a b : List Char) : Ordering :=
  match a.all isDigit, b.all isDigit with
  | false, true => .gt
  | true, false => .lt
  | false, false => cmpChars a b
  | true, true =>
    ((cmpNat (trimStart a).length (trimStart b).length).then (cmpChars (trimStart a) (trimStart b))).then
      (cmpNat a.length b.length)

/-- Segment by segment; if one list is a prefix of the other, the longer is greater. -/
def cmpSegs (c : List Char → List Char → Ordering) : List (List Char) → List (List Char) → Ordering
  | [], [] => .eq
  | [], _ :: _ => .lt
  | _ :: _, [] => .gt
  | a :: as, b :: bs => (c a b).then (cmpSegs c as bs)

/-- `Ord for Prerelease`: no pre-release is greater than any pre-release. -/
def cmpPre (a b : List (List Char)) : Ordering :=
  match a, b with
  | [], [] => .eq
  | [], _ :: _ => .gt
  | _ :: _, [] => .lt
  | a :: as, b :: bs => cmpSegs cmpPreSeg (a :: as) (b :: bs)

/-- The text `""` splits into one empty segment. -/
def buildSegs (a : List (List Char)) : List (List Char) := if a = [] then [[]] else a

/-- `Ord for BuildMetadata`. -/
def cmpBuild (a b : List (List Char)) : Ordering := cmpSegs cmpBuildSeg (buildSegs a) (buildSegs b)

/-- `Ord for Version` (derived, field by field). -/
def cmp (a b : Version) : Ordering :=
  (((cmpNat a.major b.major).then (cmpNat a.minor b.minor)).then (cmpNat a.patch b.patch)).then
    ((cmpPre a.pre b.pre).then (cmpBuild a.build b.build))

/-- `prev >= version` (`/repo/src/contract.rs` 325). -/
def ge (a b : Version) : Bool := cmp a b != .lt

end Ica.Semver
