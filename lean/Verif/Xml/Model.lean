import Verif.Py.Str
import Verif.Py.Seq

/-!
# Model of parts of `resqpy/olio/xml_et.py` and `resqpy/olio/uuid.py`

Part names, tag prefixes, text escaping, ordered lookup, uuid text.  Strings are character lists.
-/

namespace Verif.Xml
open Verif.Py

/-! ## uuids (Python's `uuid.UUID`, and olio/uuid.py) -/

/-- hexadecimal digit, lower case; for `partNameForObject` (xml_et.py:439-452) -/
def hexChar (d : Nat) : Char := if d < 10 then Char.ofNat (48 + d) else Char.ofNat (87 + d)

/-- value of a hexadecimal digit of either case; for `uuidFromString` (uuid.py:78-113) -/
def hexVal? (c : Char) : Option Nat :=
  if 48 ≤ c.toNat ∧ c.toNat ≤ 57 then some (c.toNat - 48)
  else if 97 ≤ c.toNat ∧ c.toNat ≤ 102 then some (c.toNat - 87)
  else if 65 ≤ c.toNat ∧ c.toNat ≤ 70 then some (c.toNat - 55)
  else none

/-- `'%0{w}x' % u` -/
def hexFix : Nat → Nat → List Char
  | 0, _ => []
  | w + 1, u => hexFix w (u / 16) ++ [hexChar (u % 16)]

/-- hexadecimal number; for `uuidFromString` (uuid.py:78-113) -/
def readHex (acc : Nat) : List Char → Option Nat
  | [] => some acc
  | c :: cs => match hexVal? c with
    | none => none
    | some d => readHex (acc * 16 + d) cs

/-- hyphens after 8, 12, 16, 20 digits, as in `str` of a `uuid.UUID` in the Python standard library -/
def hyphenate (h : List Char) : List Char :=
  h.take 8 ++ '-' :: ((h.drop 8).take 4 ++ '-' :: ((h.drop 12).take 4 ++ '-' ::
    ((h.drop 16).take 4 ++ '-' :: h.drop 20)))

/-- `str(uuid.UUID(int = u))`; for `partNameForObject` (xml_et.py:439-452) -/
def uuidStr (u : Nat) : List Char := hyphenate (hexFix 32 u)

/-- `uuid.UUID(s).int` in the Python standard library: hyphens are removed and 32 hexadecimal digits
must remain (`none` for ValueError).  Simplification: the prefix `urn:uuid:`, braces and the liberties
of `int(_, 16)`, which Python also accepts, are rejected. -/
def uuidParse (s : List Char) : Option Nat :=
  let h := s.filter (· ≠ '-')
  if h.length = 32 then readHex 0 h else none

/-- olio/uuid.py:78-113 `uuid_from_string` on a string; any exception gives `None` -/
def uuidFromString (s : List Char) : Option Nat :=
  match s with
  | [] => none
  | '_' :: rest => if s.length < 37 then none else uuidParse (rest.take 36)
  | _ => if s.length < 36 then none else uuidParse (s.take 36)

/-- the forms in which a uuid may be passed; for `UuidArg.toInt?` (uuid.py:176-185) -/
inductive UuidArg where
  | none
  | obj (u : Nat)
  | str (s : List Char)
  | int (u : Nat)

/-- the integer that an argument is compared by in `matching_uuids`, olio/uuid.py:176-185 -/
def UuidArg.toInt? : UuidArg → Option Nat
  | .none => Option.none
  | .obj u => some u
  | .str s => uuidFromString s
  | .int u => some u

/-- olio/uuid.py:163-186 `matching_uuids` -/
def matchingUuids (a b : UuidArg) : Bool :=
  match a.toInt?, b.toInt? with
  | some u, some v => u == v
  | _, _ => false

/-- olio/uuid.py:189-194 `uuid_in_list` -/
def uuidInList (a : UuidArg) : List UuidArg → Bool
  | [] => false
  | b :: bs => if matchingUuids a b then true else uuidInList a bs

/-! ## part names -/

/-- xml_et.py:39-47 `stripped_of_prefix` (argument not `None`) -/
def strippedOfPrefix (s : List Char) : List Char :=
  match rfind '}' s with
  | some p => s.drop (p + 1)
  | none => match rfind ':' s with
    | some p => s.drop (p + 1)
    | none => s

/-- xml_et.py:69-80 `match` -/
def tagMatch (xmlName name : List Char) : Bool :=
  if name.length < xmlName.length then
    let i := xmlName.length - name.length
    match xmlName[i - 1]? with
    | none => false
    | some ch => if ch ≠ '}' ∧ ch ≠ ':' then false else xmlName.drop i == name
  else if name.length = xmlName.length then xmlName == name
  else false

/-- for `uuidStrInPartName` (xml_et.py:421-436) -/
def dotXml : List Char := ['.', 'x', 'm', 'l']
/-- for `uuidStrInPartName` (xml_et.py:421-436) -/
def dotRels : List Char := ['.', 'r', 'e', 'l', 's']
/-- for `partNameForObject` (xml_et.py:439-452) -/
def objPrefix : List Char := ['o', 'b', 'j', '_']
/-- for `relsPartName` (xml_et.py:455-468) -/
def relsDir : List Char := ['_', 'r', 'e', 'l', 's']

/-- xml_et.py:421-436 `uuid_in_part_name` with `return_uuid_str = True` -/
def uuidStrInPartName (p : List Char) : Option (List Char) :=
  if lastN 4 p = dotXml ∧ 40 ≤ p.length then some ((lastN 40 p).take 36)
  else if lastN 9 p = dotXml ++ dotRels ∧ 45 ≤ p.length then some ((lastN 45 p).take 36)
  else none

/-- xml_et.py:421-436 `uuid_in_part_name`: `none` for `None`, ValueError when the text found is not a
uuid -/
def uuidInPartName (p : List Char) : Res (Option Nat) :=
  match uuidStrInPartName p with
  | none => .ok none
  | some h => match uuidParse h with
    | none => .error .value
    | some u => .ok (some u)

/-- xml_et.py:439-452 `part_name_for_object`; `pretend_to_be_fesapi or use_fesapi_quirks` is True (lines
22-23) -/
def partNameForObject (objType : List Char) (u : Nat) (prefixed : Bool) (subdir : List Char) :
    Res (List Char) := do
  let pre : List Char ← if prefixed then
      (match objType with
       | [] => .error .index
       | c :: _ => .ok (if c ≠ '/' then ['/'] else []))
    else .ok []
  let pre := if startsWith objPrefix objType then pre else pre ++ objPrefix
  let pre := if subdir = [] then pre
    else (if endsWith ['/'] subdir then subdir else subdir ++ ['/']) ++ pre
  return pre ++ objType ++ '_' :: (uuidStr u ++ dotXml)

/-- xml_et.py:455-468 `rels_part_name_for_part` -/
def relsPartName (part : List Char) : Option (List Char) :=
  let pn := strippedOfPrefix part
  if pn.length = 0 then none
  else match rfind '/' pn with
    | none => some (relsDir ++ '/' :: (pn ++ dotRels))
    | some d =>
      if d = 0 then some (relsDir ++ (pn ++ dotRels))
      else if d = pn.length - 1 then none
      else some (pn.take (d + 1) ++ (relsDir ++ (pn.drop d ++ dotRels)))

/-! ## writing text -/

/-- `text.replace('&', '&amp;').replace('<', '&lt;').replace('>', '&gt;')`, xml_et.py:735-736 -/
def escape (t : List Char) : List Char :=
  replaceChar '>' ['&', 'g', 't', ';']
    (replaceChar '<' ['&', 'l', 't', ';'] (replaceChar '&' ['&', 'a', 'm', 'p', ';'] t))

/-- for `writtenText` (xml_et.py:732-736) -/
def isSpace (t : List Char) : Bool := t ≠ [] && t.all isWS

/-- the text part of a node without children as written between `>` and `</`, xml_et.py:732-736;
`isTitle` is `tag.endswith('Title')`.  (`str.isspace` is modelled for the ascii blanks.) -/
def writtenText (isTitle : Bool) (t : List Char) : List Char :=
  let t := if (t = [] || isSpace t) && isTitle then ['u', 'n', 't', 'i', 't', 'l', 'e', 'd'] else t
  if t ≠ [] && !isSpace t then escape t else []

/-- an attribute as written, xml_et.py:712-713 general branch: no escaping -/
def writtenAttr (key val : List Char) : List Char := key ++ '=' :: '"' :: (val ++ ['"'])

/-- the predefined entities -/
def entity? (n : List Char) : Option Char :=
  if n = ['a', 'm', 'p'] then some '&'
  else if n = ['l', 't'] then some '<'
  else if n = ['g', 't'] then some '>'
  else if n = ['q', 'u', 'o', 't'] then some '"'
  else if n = ['a', 'p', 'o', 's'] then some '\''
  else none

/-- characters allowed in an xml 1.0 document -/
def xmlChar (c : Char) : Bool :=
  c = '\t' || c = '\n' || c = '\r' || (32 ≤ c.toNat && c.toNat ≤ 0xD7FF) ||
    (0xE000 ≤ c.toNat && c.toNat ≤ 0xFFFD) || 0x10000 ≤ c.toNat

/-- What an xml 1.0 reader makes of character data up to `stop` (`<` for text, `"` for an attribute
value): entity references decoded (W3C XML 1.0 section 4.6; character references `&#n;` are not
needed here and are rejected), `<` not allowed, and carriage returns normalised to line feeds (section
2.11).  `ent` holds the name of the entity reference being read.  Result: the text and what follows
the stop character; `none` for a document that is not well formed. -/
def readData (stop : Char) : Option (List Char) → List Char → Option (List Char × List Char)
  | _, [] => none
  | some n, c :: cs =>
    if c = ';' then match entity? n with
      | none => none
      | some e => (readData stop none cs).map fun (t, r) => (e :: t, r)
    else readData stop (some (n ++ [c])) cs
  | none, c :: cs =>
    if c = stop then some ([], cs)
    else if c = '<' then none
    else if c = '&' then readData stop (some []) cs
    else if !xmlChar c then none
    else if c = '\r' then
      match cs with
      | '\n' :: _ => readData stop none cs
      | _ => (readData stop none cs).map fun (t, r) => ('\n' :: t, r)
    else (readData stop none cs).map fun (t, r) => (c :: t, r)

/-! ## ordered lookup -/

/-- `while mid > 0 and array_1d[mid - 1] == value: mid -= 1`, xml_et.py:517-519 -/
def walkBack (v : Int) (l : List Int) : Nat → Nat
  | 0 => 0
  | m + 1 => if l[m]? = some v then walkBack v l m else m + 1

/-- `find_in_subset`, xml_et.py:510-524; the first argument bounds the depth of recursion, `none` when it
is used up -/
def findInSubset (v : Int) (l : List Int) : Nat → Nat → Nat → Option (Res (Option Nat))
  | 0, _, _ => none
  | fuel + 1, start, stop =>
    if start ≥ stop then some (.ok none)
    else
      let mid := start + (stop - start) / 2
      match l[mid]? with
      | none => some (.error .index)
      | some sample =>
        if sample = v then some (.ok (some (walkBack v l mid)))
        else if sample > v then findInSubset v l fuel start mid
        else if mid = start then findInSubset v l fuel (mid + 1) stop
        else findInSubset v l fuel mid stop

/-- xml_et.py:507-526 `find_in_ordered_data` -/
def findInOrderedData (v : Int) (l : List Int) : Option (Res (Option Nat)) :=
  findInSubset v l (l.length + 1) 0 l.length

end Verif.Xml
