import Verif.CStr.Num
/-!
# JSON documents: the specification of the reader

satyr reads JSON with json-c (`json_tokener_parse_verbose`), which is not part of /repo. This file states what such a
reader does, following RFC 8259: values, tokens, and a parser from characters to values. Deviations from json-c: real
numbers, `\u` escapes, comments and nesting limits (32) are left out, and the literals are recognised in lower case
only; satyr writes none of these. As in json-c, a string may contain control characters and bytes that are not UTF-8,
text after the first value is ignored, a comma may stand before a closing bracket or brace, and the last of several members with one
name counts.
-/
namespace Satyr.Json
open Satyr.CStr

/-- JSON values. -/
inductive Value where
  | null
  | bool (b : Bool)
  | num (n : Int)
  | str (s : Str)
  | arr (items : List Value)
  | obj (members : List (Str × Value))

/-- Tokens of JSON. -/
inductive Tok where
  | lbrace | rbrace | lbracket | rbracket | colon | comma
  | null | true | false
  | num (n : Int)
  | str (s : Str)
  deriving DecidableEq, Repr

/-- White space between tokens (RFC 8259, section 2). -/
def isWs (c : Char) : Bool := c == ' ' || c == '\n' || c == '\t' || c == '\r'

/-- The characters that can follow a backslash, with their meaning (RFC 8259, section 7). -/
def unescapeChar : Char → Option Char
  | '"' => some '"'
  | '\\' => some '\\'
  | '/' => some '/'
  | 'b' => some '\x08'
  | 'f' => some '\x0c'
  | 'n' => some '\n'
  | 'r' => some '\r'
  | 't' => some '\t'
  | _ => none

/-- Reads a string literal from behind its opening quote: its value and what follows the closing quote. -/
def readString : Str → Option (Str × Str)
  | [] => none
  | '"' :: s => some ([], s)
  | '\\' :: c :: s => (unescapeChar c).bind fun d => (readString s).map fun r => (d :: r.1, r.2)
  | c :: s => (readString s).map fun r => (c :: r.1, r.2)

/-- A number may not be followed by these: that would be another number, or one that is not an integer. -/
def numStop (s : Str) : Bool := !(c!".eE+-".contains (peek s))

/-- Reads the digits of an integer. -/
def readDigits (s : Str) : Option (Nat × Str) :=
  let ds := s.takeWhile IsDec
  let rest := s.dropWhile IsDec
  if ds = [] ∨ numStop rest = false then none else some (decValue ds, rest)

/-- The next token, and what follows it. -/
def next : Str → Option (Tok × Str)
  | [] => none
  | '{' :: s => some (.lbrace, s)
  | '}' :: s => some (.rbrace, s)
  | '[' :: s => some (.lbracket, s)
  | ']' :: s => some (.rbracket, s)
  | ':' :: s => some (.colon, s)
  | ',' :: s => some (.comma, s)
  | '"' :: s => (readString s).map fun r => (.str r.1, r.2)
  | '-' :: s => (readDigits s).map fun r => (.num (-(r.1 : Int)), r.2)
  | 'n' :: 'u' :: 'l' :: 'l' :: s => some (.null, s)
  | 't' :: 'r' :: 'u' :: 'e' :: s => some (.true, s)
  | 'f' :: 'a' :: 'l' :: 's' :: 'e' :: s => some (.false, s)
  | c :: s => if isWs c then next s else (readDigits (c :: s)).map fun r => (.num (r.1 : Int), r.2)

mutual
/-- Reads a value; the fuel bounds the number of nested calls. -/
def readValue : Nat → Str → Option (Value × Str)
  | 0, _ => none
  | n + 1, s =>
    match next s with
    | some (.null, s) => some (.null, s)
    | some (.true, s) => some (.bool true, s)
    | some (.false, s) => some (.bool false, s)
    | some (.num i, s) => some (.num i, s)
    | some (.str x, s) => some (.str x, s)
    | some (.lbracket, s) =>
      match next s with
      | some (.rbracket, s) => some (.arr [], s)
      | _ => (readItems n s).map fun r => (.arr r.1, r.2)
    | some (.lbrace, s) =>
      match next s with
      | some (.rbrace, s) => some (.obj [], s)
      | _ => (readMembers n s).map fun r => (.obj r.1, r.2)
    | _ => none
/-- Reads the items of a non-empty array and the closing bracket. -/
def readItems : Nat → Str → Option (List Value × Str)
  | 0, _ => none
  | n + 1, s =>
    match readValue n s with
    | none => none
    | some (j, s) =>
      match next s with
      | some (.rbracket, s) => some ([j], s)
      | some (.comma, s) =>
        match next s with
        | some (.rbracket, s) => some ([j], s)
        | _ => (readItems n s).map fun r => (j :: r.1, r.2)
      | _ => none
/-- Reads the members of a non-empty object and the closing brace. -/
def readMembers : Nat → Str → Option (List (Str × Value) × Str)
  | 0, _ => none
  | n + 1, s =>
    match next s with
    | some (.str k, s) =>
      match next s with
      | some (.colon, s) =>
        match readValue n s with
        | none => none
        | some (j, s) =>
          match next s with
          | some (.rbrace, s) => some ([(k, j)], s)
          | some (.comma, s) =>
            match next s with
            | some (.rbrace, s) => some ([(k, j)], s)
            | _ => (readMembers n s).map fun r => ((k, j) :: r.1, r.2)
          | _ => none
      | _ => none
    | _ => none
end

/-- Reads a document (`json_tokener_parse_verbose`). -/
def parse (s : Str) : Option Value := (readValue (2 * s.length + 2) s).map Prod.fst

/-! ## What a document says: tokens of a value, and texts of a token list -/

mutual
/-- The tokens of a value. -/
def toks : Value → List Tok
  | .null => [.null]
  | .bool b => [if b then .true else .false]
  | .num n => [.num n]
  | .str s => [.str s]
  | .arr l => .lbracket :: itemToks l
  | .obj l => .lbrace :: memberToks l
/-- The tokens of the items of an array and of its closing bracket. -/
def itemToks : List Value → List Tok
  | [] => [.rbracket]
  | j :: l => toks j ++ moreItemToks l
/-- The tokens of further items. -/
def moreItemToks : List Value → List Tok
  | [] => [.rbracket]
  | j :: l => .comma :: (toks j ++ moreItemToks l)
/-- The tokens of the members of an object and of its closing brace. -/
def memberToks : List (Str × Value) → List Tok
  | [] => [.rbrace]
  | (k, j) :: l => .str k :: .colon :: (toks j ++ moreMemberToks l)
/-- The tokens of further members. -/
def moreMemberToks : List (Str × Value) → List Tok
  | [] => [.rbrace]
  | (k, j) :: l => .comma :: .str k :: .colon :: (toks j ++ moreMemberToks l)
end

/-- The escape sequence of a character, or the character itself. -/
def escapeChar (c : Char) : Str :=
  if c = '"' then c!"\\\"" else if c = '\n' then c!"\\n" else if c = '\\' then c!"\\\\" else if c = '\r' then c!"\\r"
  else if c = '\x0c' then c!"\\f" else if c = '\x08' then c!"\\b" else if c = '\t' then c!"\\t" else [c]

/-- `Rend ts s`: the text `s` consists of the tokens `ts`, with white space between them and after every number. -/
inductive Rend : List Tok → Str → Prop
  | nil : Rend [] []
  | ws {c : Char} {ts : List Tok} {s : Str} : isWs c = true → Rend ts s → Rend ts (c :: s)
  | lbrace {ts : List Tok} {s : Str} : Rend ts s → Rend (.lbrace :: ts) ('{' :: s)
  | rbrace {ts : List Tok} {s : Str} : Rend ts s → Rend (.rbrace :: ts) ('}' :: s)
  | lbracket {ts : List Tok} {s : Str} : Rend ts s → Rend (.lbracket :: ts) ('[' :: s)
  | rbracket {ts : List Tok} {s : Str} : Rend ts s → Rend (.rbracket :: ts) (']' :: s)
  | colon {ts : List Tok} {s : Str} : Rend ts s → Rend (.colon :: ts) (':' :: s)
  | comma {ts : List Tok} {s : Str} : Rend ts s → Rend (.comma :: ts) (',' :: s)
  | null {ts : List Tok} {s : Str} : Rend ts s → Rend (.null :: ts) (c!"null" ++ s)
  | true {ts : List Tok} {s : Str} : Rend ts s → Rend (.true :: ts) (c!"true" ++ s)
  | false {ts : List Tok} {s : Str} : Rend ts s → Rend (.false :: ts) (c!"false" ++ s)
  | num (n : Nat) {c : Char} {ts : List Tok} {s : Str} : isWs c = true → Rend ts s →
      Rend (.num (n : Int) :: ts) (natDec n ++ c :: s)
  | str (x : Str) {ts : List Tok} {s : Str} : Rend ts s →
      Rend (.str x :: ts) ('"' :: (x.flatMap escapeChar ++ '"' :: s))

end Satyr.Json
