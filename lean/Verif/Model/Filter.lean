/-
Model of malstroem/scripts/_utils.py: bluespot filter expressions. Strings are lists of characters. `eval` is not
modelled: the model returns the text that is handed to it.
-/
import Verif.Model.Raster

namespace Malstroem

/-- `c.isspace()`: the characters stripped by `str.strip()`. -/
def pyIsSpace (c : Char) : Bool :=
  let n := c.toNat
  (9 ≤ n && n ≤ 13) || (28 ≤ n && n ≤ 32) || n == 0x85 || n == 0xA0 || n == 0x1680 || (0x2000 ≤ n && n ≤ 0x200A) ||
    n == 0x2028 || n == 0x2029 || n == 0x202F || n == 0x205F || n == 0x3000

/-- `s.replace(old, new)` for a non-empty `old`: from left to right, matches do not overlap. `skip` characters still
belong to the last match. -/
def pyReplaceFrom (old new : List Char) : Nat → List Char → List Char
  | _, [] => []
  | skip + 1, _ :: s => pyReplaceFrom old new skip s
  | 0, c :: s =>
    if old.isPrefixOf (c :: s) then new ++ pyReplaceFrom old new (old.length - 1) s
    else c :: pyReplaceFrom old new 0 s

/-- `s.replace(old, new)`. -/
def pyReplace (s old new : List Char) : List Char := pyReplaceFrom old new 0 s

/-- `s.strip()`. -/
def pyStrip (s : List Char) : List Char := ((s.dropWhile pyIsSpace).reverse.dropWhile pyIsSpace).reverse

namespace Filter

/-- _utils.py:18. -/
def allowedWords : List (List Char) := ["area".toList, "maxdepth".toList, "volume".toList, "and".toList, "or".toList]

/-- _utils.py:19. -/
def allowedChars : List Char := "<>=!0123456789.()".toList

/-- _utils.py:16-26 `check_filter`. -/
def checkFilter (filter : List Char) : Except PyErr Unit :=
  let filter := allowedWords.foldl (fun f w => pyReplace f w []) filter
  let filter := allowedChars.foldl (fun f c => pyReplace f [c] []) filter
  let filter := pyStrip filter
  if filter ≠ [] then .error .other else .ok ()

/-- _utils.py:29-40 `parse_filter`: `none` is the function that accepts everything, otherwise the text passed to
`eval`. -/
def parseFilter (filter : Option (List Char)) : Except PyErr (Option (List Char)) :=
  match filter with
  | none | some [] => .ok none
  | some filter => do
    checkFilter filter
    let filter := pyReplace filter "area".toList "stats[\"area\"]".toList
    let filter := pyReplace filter "maxdepth".toList "stats[\"max\"]".toList
    let filter := pyReplace filter "volume".toList "stats[\"volume\"]".toList
    pure (some ("lambda stats: ".toList ++ filter))

end Filter
end Malstroem
