import Verif.Model.Audit
/-
The texts of log values: what sudo_pair/src/lib.rs:119-130, 299-307 and 380-382 hand to the logger, after
`to_string_lossy` and `format!`.  Texts are lists of characters.  Not modelled: the `Debug` form of the plugin's
options (lib.rs:759-763; the order of the gids in it is arbitrary), what a drain makes of an absent value, and how
syslog or journald lay out a record.
-/
namespace SudoPair.Audit

/-- `char::REPLACEMENT_CHARACTER`. -/
def replacement : Char := '�'

/-- `OsStr::to_string_lossy`, `String::from_utf8_lossy` (lib.rs:121, 128, 300, 381): the loop of std's
`Utf8LossyChunksIter`.  Whatever cannot be the beginning of a character is replaced, as much of it at once as could
have been. -/
def lossy : Bytes → List Char
  | [] => []
  | a :: r =>
    if a ≤ 0x7F then Char.ofNat a.toNat :: lossy r
    else if 0xC2 ≤ a ∧ a ≤ 0xDF then
      match r with
      | [] => [replacement]
      | b :: r' =>
        if isCont b then Char.ofNat ((a.toNat - 192) * 64 + (b.toNat - 128)) :: lossy r'
        else replacement :: lossy (b :: r')
    else if 0xE0 ≤ a ∧ a ≤ 0xEF then
      match r with
      | [] => [replacement]
      | [b] => if utf8Valid.three a b then [replacement] else replacement :: lossy [b]
      | b :: c :: r' =>
        if utf8Valid.three a b then
          if isCont c then Char.ofNat ((a.toNat - 224) * 4096 + (b.toNat - 128) * 64 + (c.toNat - 128)) :: lossy r'
          else replacement :: lossy (c :: r')
        else replacement :: lossy (b :: c :: r')
    else if 0xF0 ≤ a ∧ a ≤ 0xF4 then
      match r with
      | [] => [replacement]
      | [b] => if utf8Valid.four a b then [replacement] else replacement :: lossy [b]
      | [b, c] =>
        if utf8Valid.four a b then
          if isCont c then [replacement] else replacement :: lossy [c]
        else replacement :: lossy [b, c]
      | b :: c :: d :: r' =>
        if utf8Valid.four a b then
          if isCont c then
            if isCont d then
              Char.ofNat ((a.toNat - 240) * 262144 + (b.toNat - 128) * 4096 + (c.toNat - 128) * 64 + (d.toNat - 128)) ::
                lossy r'
            else replacement :: lossy (d :: r')
          else replacement :: lossy (c :: d :: r')
        else replacement :: lossy (b :: c :: d :: r')
    else replacement :: lossy r

/-- What `char::escape_debug` does depends on the version of std: which characters it takes for printable, and
whether it escapes apostrophes and has a short form for NUL. -/
structure Escapes where
  printable  : Char → Bool
  apostrophe : Bool
  nul        : Bool

/-- `char::escape_debug`, as `Debug for str` applies it. -/
def escapeChar (E : Escapes) (c : Char) : List Char :=
  if c = '\t' then ['\\', 't']
  else if c = '\r' then ['\\', 'r']
  else if c = '\n' then ['\\', 'n']
  else if c = '"' then ['\\', '"']
  else if c = '\\' then ['\\', '\\']
  else if c = '\'' ∧ E.apostrophe then ['\\', '\'']
  else if c = '\x00' ∧ E.nul then ['\\', '0']
  else if E.printable c then [c]
  else ['\\', 'u', '{'] ++ Nat.toDigits 16 c.toNat ++ ['}']

/-- `Debug for str`. -/
def debugStr (E : Escapes) (s : List Char) : List Char := '"' :: (s.flatMap (escapeChar E) ++ ['"'])

/-- The elements of a list in `Debug for Vec`, after the first. -/
def debugRest (E : Escapes) : List (List Char) → List Char
  | [] => []
  | s :: l => ',' :: ' ' :: (debugStr E s ++ debugRest E l)

/-- `format!("{:?}", args)` (lib.rs:129): `Debug for Vec`. -/
def debugList (E : Escapes) : List (List Char) → List Char
  | [] => ['[', ']']
  | s :: l => '[' :: (debugStr E s ++ (debugRest E l ++ [']']))

/-- `format!("{:#06o}", n)` (lib.rs:306). -/
def octalForm (n : Nat) : List Char :=
  ['0', 'o'] ++ List.replicate (4 - (Nat.toDigits 8 n).length) '0' ++ Nat.toDigits 8 n

/-- The elements of a set in `Debug for HashSet`, after the first. -/
def debugGidsRest : List Nat → List Char
  | [] => []
  | g :: l => ',' :: ' ' :: (Nat.toDigits 10 g ++ debugGidsRest l)

/-- `Debug for HashSet<gid_t>`, for a set whose elements are visited in the order of the list. -/
def debugGids : List Nat → List Char
  | [] => ['{', '}']
  | g :: l => '{' :: (Nat.toDigits 10 g ++ (debugGidsRest l ++ ['}']))

/-- The derived `Debug` of `PluginOptions` (lib.rs:675-722), with `format!("{:?}", self)` (lib.rs:761), when the two
sets are visited in the orders `enforced` and `exempted`.  The paths are those of options, which are UTF-8
(option_map.rs:119-121), so that `Debug for PathBuf` has characters only to escape. -/
def optionsForm (E : Escapes) (o : PluginOptions) (enforced exempted : List Nat) : List Char :=
  "PluginOptions { binary_path: ".toList ++ (debugStr E (lossy o.binaryPath) ++
  (", user_prompt_path: ".toList ++ (debugStr E (lossy o.userPromptPath) ++
  (", pair_prompt_path: ".toList ++ (debugStr E (lossy o.pairPromptPath) ++
  (", socket_dir: ".toList ++ (debugStr E (lossy o.socketDir) ++
  (", gids_enforced: ".toList ++ (debugGids enforced ++
  (", gids_exempted: ".toList ++ (debugGids exempted ++ " }".toList)))))))))))

/-- An order in which the set of the elements of `s` may be visited: every element once.  A `HashSet` visits them in
any order, and in a different one in each process. -/
def Visits (l s : List Nat) : Prop := l.Nodup ∧ ∀ g, g ∈ l ↔ g ∈ s

/-- The texts that options may appear as. -/
def OptionsShown (E : Escapes) (o : PluginOptions) (text : List Char) : Prop :=
  ∃ enforced exempted, Visits enforced o.gidsEnforced ∧ Visits exempted o.gidsExempted ∧
    text = optionsForm E o enforced exempted

/-- The text of a value; `none` for those that have none, and for options, which have several (`OptionsShown`). -/
def Value.shown (E : Escapes) : Value → Option (List Char)
  | .num n          => some (Nat.toDigits 10 n)
  | .text b         => some (lossy b)
  | .octal n        => some (octalForm n)
  | .texts l        => some (debugList E (l.map lossy))
  | .maybe (some b) => some (lossy b)
  | .maybe none     => none
  | .options _      => none

/-- The texts of the values of a record. -/
def shownFields (E : Escapes) (fs : Fields) : List (Bytes × Option (List Char)) :=
  fs.map fun (k, v) => (k, v.shown E)

end SudoPair.Audit
