import Verif.Model.CString
/-!
# src/uecho/util/strings_function.c, strings_tokenizer.c, and `uecho_string_replace`

A string that is changed in place is the block `m : List Byte` it lies in, from its first character on; a pointer into it is a position. A
string that is only read is the list of its characters before the terminator. Lengths are below 2^63.
-/
namespace Uecho.Strings
open Uecho

/-- What a reader of the C string at the start of `m` sees: the bytes up to the first zero. -/
def cstr : List Byte → Res (List Byte)
  | [] => .ub
  | c :: m => if c = 0#8 then .ok [] else do
      let cs ← cstr m
      return c :: cs

/-- `for (j = 0; j < n; j++) if (c == chars[j])` — src/uecho/util/strings_function.c:191-194, 276-281, 301-307, from `j` on with `k`
rounds left. -/
def hasChar (chars : List Byte) (c : Byte) : (k j : Nat) → Res Bool
  | 0, _ => .ok false
  | k + 1, j => do
      let d ← rd chars j
      if c = d then return true else hasChar chars c k (j + 1)

/-- The loop of `uecho_strchr` — src/uecho/util/strings_function.c:190-195, at the character number `i`; `cs` are the characters from it on. -/
def strchrLoop (chars : List Byte) (n : Nat) : List Byte → Nat → Res Int
  | [], _ => .ok (-1)
  | c :: cs, i => do
      let b ← hasChar chars c n 0
      if b then return (i : Int) else strchrLoop chars n cs (i + 1)

/-- `uecho_strchr` — src/uecho/util/strings_function.c:181-198. -/
def strchr (str : Option (List Byte)) (chars : Option (List Byte)) (n : Nat) : Res Int :=
  match str, chars with
  | some s, some chars => strchrLoop chars n s 0
  | _, _ => .ok (-1)

/-- The loop of `uecho_strrchr` — src/uecho/util/strings_function.c:213-218, with `i + 1` characters left to look at. -/
def strrchrLoop (chars : List Byte) (n : Nat) (s : List Byte) : Nat → Res Int
  | 0 => .ok (-1)
  | i + 1 => do
      let c ← rd s i
      let b ← hasChar chars c n 0
      if b then return (i : Int) else strrchrLoop chars n s i

/-- `uecho_strrchr` — src/uecho/util/strings_function.c:204-221. -/
def strrchr (str : Option (List Byte)) (chars : Option (List Byte)) (n : Nat) : Res Int :=
  match str, chars with
  | some s, some chars => strrchrLoop chars n s s.length
  | _, _ => .ok (-1)

/-- The loop of `uecho_strltrim` — src/uecho/util/strings_function.c:274-286; `cs` are the characters from number `i` on; the position of the
returned pointer. -/
def ltrimLoop (delim : List Byte) (n : Nat) : List Byte → Nat → Res Nat
  | [], i => .ok i
  | c :: cs, i => do
      let b ← hasChar delim c n 0
      if b then ltrimLoop delim n cs (i + 1) else return i

/-- `uecho_strltrim` — src/uecho/util/strings_function.c:268-287. -/
def strltrim (m delim : List Byte) (n : Nat) : Res Nat := do
  let s ← cstr m
  ltrimLoop delim n s 0

/-- The loop of `uecho_strrtrim` — src/uecho/util/strings_function.c:299-310. -/
def rtrimLoop (delim : List Byte) (n : Nat) : (m : List Byte) → Nat → Res (List Byte)
  | m, 0 => .ok m
  | m, i + 1 => do
      let c ← rd m i
      let b ← hasChar delim c n 0
      if b then do
        let m ← wr m i 0#8
        rtrimLoop delim n m i
      else return m

/-- `uecho_strrtrim` — src/uecho/util/strings_function.c:293-313. -/
def strrtrim (m delim : List Byte) (n : Nat) : Res (List Byte) := do
  let s ← cstr m
  rtrimLoop delim n m s.length

/-- `uecho_strtrim` — src/uecho/util/strings_function.c:255-262: the block afterwards and the position of the returned pointer. -/
def strtrim (m delim : List Byte) (n : Nat) : Res (List Byte × Nat) := do
  let m ← strrtrim m delim n
  let p ← strltrim m delim n
  return (m, p)

/-- `isspace` in the "C" locale: `' '`, `\t`, `\n`, `\v`, `\f`, `\r`. -/
def isSpace (c : Byte) : Bool := c == 0x20#8 || (0x09#8 ≤ c && c ≤ 0x0D#8)

/-- The first loop of `uecho_strtrimwhite` — src/uecho/util/strings_function.c:234-238: every white character is counted off, wherever it is. -/
def whiteLoop (m : List Byte) : Nat → Nat → Res Nat
  | 0, len => .ok len
  | i + 1, len => do
      let c ← rd m i
      whiteLoop m i (if isSpace c then len - 1 else len)

/-- The second loop of `uecho_strtrimwhite` — src/uecho/util/strings_function.c:239-242, with `k` rounds left. -/
def skipLoop (m : List Byte) : Nat → Nat → Res Nat
  | 0, i => .ok i
  | k + 1, i => do
      let c ← rd m i
      if isSpace c then skipLoop m k (i + 1) else return i

/-- `uecho_strtrimwhite` — src/uecho/util/strings_function.c:227-249. `isspace` is undefined for negative values; this model gives it the
value for the unsigned character. -/
def strtrimwhite (m : List Byte) : Res (List Byte) := do
  let s ← cstr m
  if s.length = 0 then return m else do
    let len ← whiteLoop m s.length s.length
    let i ← skipLoop m len 0
    let m ← if 0 < i then do
        let xs ← rdN m i (len - i)
        wrN m 0 xs
      else Res.ok m
    wr m len 0#8

/-- `uecho_strncpy(str1 + p, str2, cnt)` — src/uecho/util/strings_function.c:319-323: `strncpy` fills up with zeros, and does not terminate a
string that does not fit. -/
def strncpyAt (m : List Byte) (p : Nat) (str2 : List Byte) (cnt : Nat) : Res (List Byte) :=
  wrN m p (str2.take cnt ++ List.replicate (cnt - str2.length) 0#8)

/-- `uecho_strncat` — src/uecho/util/strings_function.c:329-334. -/
def strncat (m : List Byte) (str2 : List Byte) (cnt : Nat) : Res (List Byte) := do
  let s ← cstr m
  strncpyAt m s.length str2 cnt

/-! ## Tokenizer -/

/-- `uEchoStringTokenizer` — src/uecho/util/strings.h; pointers into `value` are positions. -/
structure Tok where
  value : List Byte
  delim : List Byte
  nextStart : Nat
  lastPos : Nat
  curr : Option Nat
  next : Option Nat
  hasNext : Bool
  rep : Byte
deriving DecidableEq

/-- The inner loop of `uecho_string_tokenizer_nexttoken` — src/uecho/util/strings_tokenizer.c:74-87. -/
def delimLoop (i tokenCnt : Nat) : Tok → List Byte → Bool → Res (Tok × Bool)
  | t, [], isDelim => .ok (t, isDelim)
  | t, d :: ds, isDelim => do
      let c ← rd t.value i
      if c = d then
        if tokenCnt = 0 then return ({ t with nextStart := i + 1 }, true) else do
          let v ← wr t.value i 0#8
          delimLoop i tokenCnt { t with hasNext := true, rep := c, value := v, next := some t.nextStart, nextStart := i + 1 } ds true
      else delimLoop i tokenCnt t ds isDelim

/-- The outer loop — src/uecho/util/strings_tokenizer.c:72-92; the number of characters of the token. With more than `fuel` rounds, which is
more than the block has characters, the loop reads behind the block or never ends: both are `ub`. -/
def scanLoop : (fuel i tokenCnt : Nat) → Tok → Res (Tok × Nat)
  | 0, _, _, _ => .ub
  | fuel + 1, i, tokenCnt, t =>
      if t.lastPos < i then .ok (t, tokenCnt) else do
        let (t, isDelim) ← delimLoop i tokenCnt t t.delim false
        if t.hasNext then return (t, tokenCnt)
        else scanLoop fuel (i + 1) (if isDelim then tokenCnt else tokenCnt + 1) t

/-- `uecho_string_tokenizer_nexttoken` — src/uecho/util/strings_tokenizer.c:61-101. -/
def nexttoken (t : Tok) : Res Tok := do
  let (t, tokenCnt) ← scanLoop (t.value.length + 1) t.nextStart 0 { t with curr := t.next, next := none, hasNext := false, rep := 0#8 }
  if t.hasNext = false ∧ 0 < tokenCnt then
    return { t with hasNext := true, next := some t.nextStart, nextStart := t.lastPos + 1 }
  else return t

/-- `uecho_string_tokenizer_new` — src/uecho/util/strings_tokenizer.c:17-35, for strings that are not NULL. -/
def tokenizerNew (value delim : List Byte) : Res Tok :=
  nexttoken ⟨value ++ [0#8], delim, 0, szSub value.length 1, none, none, false, 0#8⟩

/-- `uecho_string_tokenizer_nextalltoken` — src/uecho/util/strings_tokenizer.c:107-117. -/
def nextalltoken (t : Tok) : Res Tok :=
  match t.next with
  | none => .ub
  | some p => do
      let s ← cstr (t.value.drop p)
      let v ← wr t.value (p + s.length) t.rep
      return { t with value := v, curr := some p, next := none, hasNext := false }

/-- The characters of the current token. -/
def Tok.current (t : Tok) : Res (List Byte) :=
  match t.curr with
  | none => .ub
  | some p => cstr (t.value.drop p)

/-- `while (uecho_string_tokenizer_hasmoretoken(t)) use(uecho_string_tokenizer_nexttoken(t))`, up to `n` rounds: the tokens and the tokenizer
afterwards. -/
def takeTokens : Nat → Tok → Res (List (List Byte) × Tok)
  | 0, t => .ok ([], t)
  | n + 1, t =>
      if t.hasNext then do
        let t ← nexttoken t
        let s ← t.current
        let (ss, t) ← takeTokens n t
        return (s :: ss, t)
      else .ok ([], t)

/-! ## Replacement -/

open CString in
/-- The inner loop of `uecho_string_replace` — src/uecho/util/strings.c:291-298: after a replacement the `continue` goes on with the next
pattern. `strncmp` with the length of the pattern compares a pattern without zeros with the characters from `pos` on. -/
def replacePass (text : List Byte) : List (List Byte × List Byte) → Nat → Bool → Str → Res (Nat × Bool × Str)
  | [], pos, r, rep => .ok (pos, r, rep)
  | (f, to) :: ps, pos, r, rep =>
      if f.isPrefixOf (text.drop pos) then do
        let rep ← add rep (some to)
        replacePass text ps (pos + f.length) true rep
      else replacePass text ps pos r rep

open CString in
/-- The outer loop — src/uecho/util/strings.c:289-303; `none`: not finished after `fuel` rounds. -/
def replaceLoop (text : List Byte) (ps : List (List Byte × List Byte)) : Nat → Nat → Str → Res (Option Str)
  | fuel, pos, rep =>
    if text.length ≤ pos then .ok (some rep) else
    match fuel with
    | 0 => .ok none
    | fuel + 1 => do
      let (pos, r, rep) ← replacePass text ps pos false rep
      if r then replaceLoop text ps fuel pos rep else do
        let rep ← addN rep (some (text.drop pos)) 1
        replaceLoop text ps fuel (pos + 1) rep

open CString in
/-- `uecho_string_replace` — src/uecho/util/strings.c:260-312, with at least one pattern; `ps` are the pairs of `fromStr` and `toStr`. The text is
what a reader of the string sees; it contains no zero. -/
def replace (fuel : Nat) (s : Str) (ps : List (List Byte × List Byte)) : Res (Option Str) := do
  let text ← getValue s
  match ← replaceLoop (text.getD []) ps fuel 0 new with
  | none => return none
  | some rep =>
    let v ← getValue rep
    let s ← set s v
    return some s

end Uecho.Strings
