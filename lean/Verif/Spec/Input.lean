import Verif.Spec.Text
/-
The input the plugin requires from sudo.
-/
namespace SudoPair.Spec

/-- Every required key of `settings` and `user_info` is present, well-formed UTF-8, and denotes a value
of its type. -/
def WellFormedInput (settings userInfo : Option (List Bytes)) : Prop :=
  (∃ x, Required settings (b! "plugin_dir") DenotesS x) ∧
  (∃ x, Required settings (b! "plugin_path") DenotesS x) ∧
  (∃ x, Required settings (b! "progname") DenotesS x) ∧
  (∃ x, Required userInfo (b! "cwd") DenotesS x) ∧
  (∃ x, Required userInfo (b! "egid") (DenotesU 32) x) ∧
  (∃ x, Required userInfo (b! "euid") (DenotesU 32) x) ∧
  (∃ x, Required userInfo (b! "gid") (DenotesU 32) x) ∧
  (∃ x, Required userInfo (b! "groups") DenotesIds x) ∧
  (∃ x, Required userInfo (b! "host") DenotesS x) ∧
  (∃ x, Required userInfo (b! "pgid") (DenotesI 32) x) ∧
  (∃ x, Required userInfo (b! "pid") (DenotesI 32) x) ∧
  (∃ x, Required userInfo (b! "ppid") (DenotesI 32) x) ∧
  (∃ x, Required userInfo (b! "uid") (DenotesU 32) x) ∧
  (∃ x, Required userInfo (b! "user") DenotesS x)

end SudoPair.Spec
