import Verif.Model.OptionMap
import Verif.Model.Template
/-
The project's own unit tests, run on the model: a check that the model says what the code's authors expect of the
code.  These are tests, not proofs; the general statements are C26 to C34 and C52.
-/
namespace SudoPair.UnitTests

/-! ### sudo_plugin/src/options/option_map.rs:131-281 -/

/-- `new_parses_string_keys` (option_map.rs:144-155). -/
example :
    let m := OptionMap.fromRaw (some [b! "key1=value1", b! "key2=value2"])
    m.getStr (b! "key1") = some (b! "value1") ∧ m.getStr (b! "key2") = some (b! "value2") ∧
    m.getStr (b! "key3") = none := by decide

/-- `new_parses_null_options` (option_map.rs:157-162). -/
example : OptionMap.fromRaw none = [] := rfl

/-- `new_parses_non_utf8_keys` (option_map.rs:164-172). -/
example : (OptionMap.fromRaw (some [0x80 :: b! "=value"])).getBytes [0x80] = some (b! "value") := by decide

/-- `new_parses_non_utf8_values` (option_map.rs:174-183). -/
example :
    let m := OptionMap.fromRaw (some [b! "key=" ++ [0x80]])
    m.getStr (b! "key") = none ∧ m.getBytes (b! "key") = some [0x80] := by decide

/-- `new_parses_repeated_keys` (option_map.rs:185-195). -/
example : (OptionMap.fromRaw (some [b! "key=value1", b! "key=value2", b! "key=value3"])).getStr (b! "key") =
    some (b! "value3") := by decide

/-- `new_parses_valueless_keys` (option_map.rs:197-205). -/
example : (OptionMap.fromRaw (some [b! "key"])).getStr (b! "key") = some (b! "key") := by decide

/-- `new_parses_values_with_the_separator` (option_map.rs:207-216). -/
example :
    let m := OptionMap.fromRaw (some [b! "key=value=value"])
    m.getStr (b! "key") = some (b! "value=value") ∧ m.getStr (b! "key=value") = none := by decide

/-- The map of `get_parses_common_types` (option_map.rs:220-228). -/
def common : OptionMap := OptionMap.fromRaw (some [b! "str=value", b! "true", b! "false", b! "i64=-42", b! "u64=42",
  b! "path=/foo/bar"])

/-- `get_parses_common_types` (option_map.rs:218-248). -/
example :
    common.get? parseStr (b! "str") = some (b! "value") ∧ common.get? parseStr (b! "path") = some (b! "/foo/bar") ∧
    common.get? parseBool (b! "true") = some true ∧ common.get? parseBool (b! "false") = some false ∧
    common.get? parseBool (b! "str") = none ∧
    common.get? (parseInt 8) (b! "i64") = some (-42) ∧ common.get? (parseInt 16) (b! "i64") = some (-42) ∧
    common.get? (parseInt 32) (b! "i64") = some (-42) ∧ common.get? (parseInt 64) (b! "i64") = some (-42) ∧
    common.get? (parseInt 64) (b! "true") = none ∧
    common.get? (parseUInt 8) (b! "u64") = some 42 ∧ common.get? (parseUInt 16) (b! "u64") = some 42 ∧
    common.get? (parseUInt 32) (b! "u64") = some 42 ∧ common.get? (parseUInt 64) (b! "u64") = some 42 ∧
    common.get? (parseUInt 64) (b! "i64") = none := by decide

/-- `Vec<String>` with the separator of the tests (option_map.rs:139-141, traits.rs:118-137). -/
def bars (s : Bytes) : Option (List Bytes) := parseAll parseStr (splitOn 124 s)

/-- `get_parses_lists` (option_map.rs:250-262). -/
example :
    let m := OptionMap.fromRaw (some [b! "ints=1,2,3", b! "strs=a|b|c", b! "str=a,b,c"])
    m.get? (parseList (parseUInt 8)) (b! "ints") = some [1, 2, 3] ∧
    m.get? bars (b! "strs") = some [b! "a", b! "b", b! "c"] ∧ m.get? bars (b! "str") = some [b! "a,b,c"] := by decide

/-- `get_parses_hashsets` (option_map.rs:264-279). -/
example :
    let m := OptionMap.fromRaw (some [b! "nums=1|2|3"])
    ∃ l, m.get? bars (b! "nums") = some l ∧ b! "1" ∈ l ∧ b! "2" ∈ l ∧ b! "3" ∈ l ∧ b! "4" ∉ l :=
  ⟨[b! "1", b! "2", b! "3"], by decide⟩

/-! ### sudo_pair/src/template.rs:92-269 -/

/-- `new` (template.rs:96-101). -/
example : TemplateSpec.new.escape = 37 := rfl

/-- `with_escape` (template.rs:103-108). -/
example : (TemplateSpec.withEscape 92).escape = 92 := rfl

/-- `from_hashmap` (template.rs:110-118). -/
example : (TemplateSpec.ofMap [(120, b! "abc")]).expansions = [(120, b! "abc")] := rfl

/-- `no_expansions` (template.rs:120-129). -/
example : TemplateSpec.new.expand (b! "this has no expansions") = b! "this has no expansions" := by decide +kernel

/-- `expansions` (template.rs:131-143). -/
example : ((TemplateSpec.new.replace 97 (b! "foo")).replace 98 (b! "bar")).expand (b! "a: %a, b: %b") =
    b! "a: foo, b: bar" := by decide +kernel

/-- `repeated_expansions` (template.rs:145-157). -/
example : ((TemplateSpec.new.replace 97 (b! "x")).replace 98 (b! "y")).expand (b! "%a%a%a%b%a%a%b") =
    b! "xxxyxxy" := by decide +kernel

/-- `expansion_inserts_itself` (template.rs:159-170). -/
example : (TemplateSpec.new.replace 120 (b! "x")).expand (b! "test %x test") = b! "test x test" := by decide +kernel

/-- `expansion_isnt_recursive` (template.rs:172-184). -/
example : ((TemplateSpec.new.replace 120 (b! "%x %y %z % %%")).replace 121 (b! "BUG")).expand (b! "test %x test") =
    b! "test %x %y %z % %% test" := by decide +kernel

/-- `expansion_inserts_nothing` (template.rs:186-197). -/
example : (TemplateSpec.new.replace 88 []).expand (b! "test %X test") = b! "test  test" := by decide +kernel

/-- `unused_expansions` (template.rs:199-211). -/
example : ((TemplateSpec.new.replace 121 (b! "qwerty")).replace 110 (b! "uiop[")).expand
    (b! "only y should be expanded %y") = b! "only y should be expanded qwerty" := by decide +kernel

/-- `literals` (template.rs:213-224). -/
example : (TemplateSpec.new.replace 98 (b! "bar")).expand (b! "a: %a, b: %b") = b! "a: a, b: bar" := by
  decide +kernel

/-- `literal_escape_character` (template.rs:226-235). -/
example : TemplateSpec.new.expand (b! "%%%%%%%%%%%%%%") = b! "%%%%%%%" := by decide +kernel

/-- `bug_wontfix_expand_escape_character` (template.rs:237-250). -/
example : (TemplateSpec.new.replace 37 (b! "x")).expand (b! "|%%|") = b! "|x|" := by decide +kernel

/-- `bug_wontfix_swallow_trailing_escape_character` (template.rs:252-268). -/
example : TemplateSpec.new.expand (b! "some text%") = b! "some text" := by decide +kernel

end SudoPair.UnitTests
