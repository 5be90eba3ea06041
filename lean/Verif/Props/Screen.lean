import Verif.Spec.Screen
import Verif.Props.Prompts
import Verif.Props.Command
import Verif.Props.Gate
/-
C83: what the pair sees on their terminal when they are asked.
-/
namespace SudoPair
open Spec Screen

/-! ### Typing -/

theorem type_append (s : Screen) (a b : Bytes) : s.type (a ++ b) = (s.type a).type b := List.foldl_append

/-- Printable text at the end of a line. -/
theorem type_printable {text : Bytes} (h : Printable text) (above : List Bytes) (line : Bytes) :
    Screen.type ⟨above, line, line.length, none⟩ text = ⟨above, line ++ text, (line ++ text).length, none⟩ := by
  induction text generalizing line with
  | nil => simp [Screen.type]
  | cons b t ih =>
    have hb := h b (by simp)
    have e : feed ⟨above, line, line.length, none⟩ b = ⟨above, line ++ [b], (line ++ [b]).length, none⟩ := by
      have h1 : b ≠ 27 := by rintro rfl; exact absurd hb.1 (by decide)
      have h2 : b ≠ 10 := by rintro rfl; exact absurd hb.1 (by decide)
      have h3 : b ≠ 13 := by rintro rfl; exact absurd hb.1 (by decide)
      have h4 : b ≠ 8 := by rintro rfl; exact absurd hb.1 (by decide)
      have h5 : ¬ (b < 32 ∨ b = 127) := by
        rintro (h | rfl)
        · exact absurd hb.1 (UInt8.not_le.2 h)
        · exact absurd hb.2 (by decide)
      have h6 : ¬ (b = 24 ∨ b = 26) := by rintro (rfl | rfl) <;> exact absurd hb.1 (by decide)
      simp [feed, h1, h2, h3, h4, h5, h6, put]
    show Screen.type (feed _ b) t = _
    rw [e, ih (fun c hc => h c (by simp [hc]))]
    simp

theorem type_seq (s : Screen) (a b : Bytes) (above : List Bytes) (line : Bytes) (hs : s.type a = ⟨above, line, line.length, none⟩)
    (h : Printable b) : s.type (a ++ b) = ⟨above, line ++ b, (line ++ b).length, none⟩ := by
  rw [type_append, hs, type_printable h]

/-- A line feed. -/
theorem type_lf (above : List Bytes) (line : Bytes) (col : Nat) (t : Bytes) :
    Screen.type ⟨above, line, col, none⟩ (10 :: t) = Screen.type ⟨above ++ [line], [], 0, none⟩ t := rfl

/-- Going back to the beginning of the line and erasing it. -/
theorem type_wipe (above : List Bytes) (line : Bytes) (col : Nat) :
    Screen.type ⟨above, line, col, none⟩ (b! "\r\x1b[K") = ⟨above, [], 0, none⟩ := by
  simp [Screen.type, feed, Screen.control]

/-- The colours of the shipped prompt. -/
theorem type_colours (above : List Bytes) (line : Bytes) :
    Screen.type ⟨above, line, line.length, none⟩ (b! "\x1b[0m@\x1b[1m\x1b[31m") =
      ⟨above, line ++ b! "@", (line ++ b! "@").length, none⟩ ∧
    Screen.type ⟨above, line, line.length, none⟩ (b! "\x1b[0m:\x1b[1m\x1b[34m") =
      ⟨above, line ++ b! ":", (line ++ b! ":").length, none⟩ ∧
    Screen.type ⟨above, line, line.length, none⟩ (b! "\x1b[0m \x1b[31m$\x1b[0m > ") =
      ⟨above, line ++ b! " $ > ", (line ++ b! " $ > ").length, none⟩ := by
  have sgr : ∀ (line : Bytes) (c : Nat), Screen.type ⟨above, line, c, none⟩ (b! "\x1b[0m") = ⟨above, line, c, none⟩ ∧
      Screen.type ⟨above, line, c, none⟩ (b! "\x1b[1m\x1b[31m") = ⟨above, line, c, none⟩ ∧
      Screen.type ⟨above, line, c, none⟩ (b! "\x1b[1m\x1b[34m") = ⟨above, line, c, none⟩ ∧
      Screen.type ⟨above, line, c, none⟩ (b! "\x1b[31m") = ⟨above, line, c, none⟩ := by
    intro line c
    simp [Screen.type, feed, Screen.control]
  have e1 : b! "\x1b[0m@\x1b[1m\x1b[31m" = b! "\x1b[0m" ++ b! "@" ++ b! "\x1b[1m\x1b[31m" := by decide
  have e2 : b! "\x1b[0m:\x1b[1m\x1b[34m" = b! "\x1b[0m" ++ b! ":" ++ b! "\x1b[1m\x1b[34m" := by decide
  have e3 : b! "\x1b[0m \x1b[31m$\x1b[0m > " = b! "\x1b[0m" ++ b! " " ++ b! "\x1b[31m" ++ b! "$" ++ b! "\x1b[0m" ++ b! " > " := by
    decide
  have pr : ∀ (line t : Bytes), Printable t → Screen.type ⟨above, line, line.length, none⟩ t =
      ⟨above, line ++ t, (line ++ t).length, none⟩ := fun line t h => type_printable h above line
  refine ⟨?_, ?_, ?_⟩
  · rw [e1, type_append, type_append, (sgr _ _).1, pr _ _ (by decide), (sgr _ _).2.1]
  · rw [e2, type_append, type_append, (sgr _ _).1, pr _ _ (by decide), (sgr _ _).2.2.1]
  · rw [e3]
    simp only [type_append]
    rw [(sgr _ _).1, pr _ _ (by decide), (sgr _ _).2.2.2, pr _ _ (by decide), (sgr _ _).1, pr _ _ (by decide)]
    simp

/-- What stands before the command in the built-in prompt and in the shipped one. -/
def shortLead (env : IoEnv) : Bytes :=
  env.userInfo.user ++ b! "@" ++ env.userInfo.host ++ b! ":" ++ commandDir env ++ b! "$ "
def longLead (env : IoEnv) : Bytes :=
  b! "    <" ++ env.userInfo.user ++ b! "@" ++ env.userInfo.host ++ b! ":" ++ commandDir env ++ b! " $ > "

/-- The fixed lines of the shipped prompt. -/
def introLines : List Bytes :=
  [b! "You have been asked to approve and monitor the following sudo session:", b! ""]
def outroLines : List Bytes :=
  [b! "",
   b! "Once approved, this terminal will mirror all output from the active sudo session until its completion.",
   b! "",
   b! "Closing this terminal, losing your network connection to this host, or explicitly ending the session by typing <Ctrl-D> will cause the command being run under elevated privileges to terminate immediately.",
   b! "", b! "Approve? y/n [n]: "]

theorem append_printable {a b : Bytes} (ha : Printable a) (hb : Printable b) : Printable (a ++ b) := by
  intro c hc
  rcases List.mem_append.1 hc with h | h
  · exact ha c h
  · exact hb c h

/-- Up to the command, the built-in prompt. -/
theorem type_short {env : IoEnv} (hu : Printable env.userInfo.user) (hh : Printable env.userInfo.host)
    (hd : Printable (commandDir env)) (above : List Bytes) :
    Screen.type ⟨above, [], 0, none⟩ (shortLead env) = ⟨above, shortLead env, (shortLead env).length, none⟩ := by
  have h : Printable (shortLead env) :=
    append_printable (append_printable (append_printable (append_printable (append_printable hu (by decide)) hh)
      (by decide)) hd) (by decide)
  simpa using type_printable h above []

/-- Up to the command, the shipped prompt. -/
theorem type_long {env : IoEnv} (hu : Printable env.userInfo.user) (hh : Printable env.userInfo.host)
    (hd : Printable (commandDir env)) :
    blank.type (samplePairIntro ++ env.userInfo.user ++ b! "\x1b[0m@\x1b[1m\x1b[31m" ++ env.userInfo.host ++
      b! "\x1b[0m:\x1b[1m\x1b[34m" ++ commandDir env ++ b! "\x1b[0m \x1b[31m$\x1b[0m > ") =
    ⟨introLines, longLead env, (longLead env).length, none⟩ := by
  have h0 : blank.type samplePairIntro = ⟨introLines, b! "    <", (b! "    <").length, none⟩ := by decide +kernel
  have h1 := type_seq _ _ _ _ _ h0 hu
  have h2 := (congrArg (Screen.type · (b! "\x1b[0m@\x1b[1m\x1b[31m")) h1).trans (type_colours _ _).1
  rw [← type_append] at h2
  have h3 := type_seq _ _ _ _ _ h2 hh
  have h4 := (congrArg (Screen.type · (b! "\x1b[0m:\x1b[1m\x1b[34m")) h3).trans (type_colours _ _).2.1
  rw [← type_append] at h4
  have h5 := type_seq _ _ _ _ _ h4 hd
  have h6 := (congrArg (Screen.type · (b! "\x1b[0m \x1b[31m$\x1b[0m > ")) h5).trans (type_colours _ _).2.2
  rw [← type_append] at h6
  exact h6

/-- After the command, the two prompts. -/
theorem lines_short (above : List Bytes) (line : Bytes) :
    (Screen.type ⟨above, line, line.length, none⟩ (b! "\ny/n? [n]: ")).lines = above ++ [line, b! "y/n? [n]: "] := by
  have : b! "\ny/n? [n]: " = 10 :: b! "y/n? [n]: " := by decide
  rw [this, type_lf]
  have h := type_printable (text := b! "y/n? [n]: ") (by decide) (above ++ [line]) []
  rw [show (0 : Nat) = ([] : Bytes).length from rfl, h]
  simp [Screen.lines]

theorem above_feed (s : Screen) (a : List Bytes) (b : UInt8) :
    feed ⟨a ++ s.above, s.line, s.col, s.esc⟩ b =
      ⟨a ++ (feed s b).above, (feed s b).line, (feed s b).col, (feed s b).esc⟩ := by
  unfold feed put Screen.control
  rcases s with ⟨above, line, col, _ | _ | ps⟩ <;> dsimp only <;> repeat' split
  all_goals first | rfl | simp only [List.append_assoc]

/-- What stands above has no influence. -/
theorem above_type (s : Screen) (a : List Bytes) (t : Bytes) :
    Screen.type ⟨a ++ s.above, s.line, s.col, s.esc⟩ t =
      ⟨a ++ (s.type t).above, (s.type t).line, (s.type t).col, (s.type t).esc⟩ := by
  induction t generalizing s with
  | nil => rfl
  | cons b t ih =>
    show Screen.type (feed _ b) t = _
    rw [above_feed, ih]
    rfl

theorem lines_long (above : List Bytes) (line : Bytes) :
    (Screen.type ⟨above, line, line.length, none⟩ samplePairOutro).lines = above ++ [line] ++ outroLines := by
  have h1 : samplePairOutro = 10 :: samplePairOutro.tail := by decide +kernel
  have h2 : (blank.type samplePairOutro.tail).lines = outroLines := by decide +kernel
  rw [h1, type_lf]
  have := above_type blank (above ++ [line]) samplePairOutro.tail
  rw [show (blank.above) = [] from rfl, List.append_nil] at this
  rw [← h2, show (⟨above ++ [line], [], 0, none⟩ : Screen) = ⟨above ++ [line], blank.line, blank.col, blank.esc⟩ from rfl, this]
  simp [Screen.lines]

/-! ### The property -/

/-- C83: if user, host, directory and command line consist of printable characters, the built-in prompt shows them as
they are, on one line, above the question. -/
theorem C83_default {p : Pair} (hu : Printable p.env.userInfo.user) (hh : Printable p.env.userInfo.host)
    (hd : Printable (commandDir p.env)) (hi : Printable (commandText p.env)) :
    seen (p.templateSpec.expand defaultPairPrompt) =
      [p.env.userInfo.user ++ b! "@" ++ p.env.userInfo.host ++ b! ":" ++ commandDir p.env ++ b! "$ " ++ commandText p.env,
       b! "y/n? [n]: "] := by
  unfold seen
  rw [C61_default_pair, type_append]
  have h := type_seq blank _ _ _ _ (type_short hu hh hd []) hi
  unfold shortLead at h
  rw [h, lines_short]
  rfl

/-- C83: and so does the shipped prompt, between its fixed lines. -/
theorem C83_sample {p : Pair} (hu : Printable p.env.userInfo.user) (hh : Printable p.env.userInfo.host)
    (hd : Printable (commandDir p.env)) (hi : Printable (commandText p.env)) :
    seen (p.templateSpec.expand samplePairPrompt) = introLines ++
      [b! "    <" ++ p.env.userInfo.user ++ b! "@" ++ p.env.userInfo.host ++ b! ":" ++ commandDir p.env ++ b! " $ > " ++
        commandText p.env] ++ outroLines := by
  unfold seen
  rw [C61_sample_pair, type_append]
  have h := type_seq blank _ _ _ _ (type_long hu hh hd) hi
  rw [h, lines_long]
  rfl

/-- The same session with another command line. -/
def withArgs (p : Pair) (argv : List Bytes) : Pair := { p with env := { p.env with cmdline := argv } }

theorem invocation_snoc (p : Pair) (argv : List Bytes) (w : Bytes) :
    commandText (withArgs p (argv ++ [w])).env = commandText (withArgs p argv).env ++ b! " " ++ w := by
  simp only [withArgs, commandText, List.flatMap_append, List.flatMap_cons, List.flatMap_nil, List.append_nil,
    List.append_assoc]

theorem no_zero {t : Bytes} (h : Printable t) : (0 : UInt8) ∉ t := fun h0 => absurd (h 0 h0).1 (by decide)

theorem short_printable {env : IoEnv} (hu : Printable env.userInfo.user) (hh : Printable env.userInfo.host)
    (hd : Printable (commandDir env)) : Printable (shortLead env) :=
  append_printable (append_printable (append_printable (append_printable (append_printable hu (by decide)) hh)
    (by decide)) hd) (by decide)

theorem long_printable {env : IoEnv} (hu : Printable env.userInfo.user) (hh : Printable env.userInfo.host)
    (hd : Printable (commandDir env)) : Printable (longLead env) :=
  append_printable (append_printable (append_printable (append_printable (append_printable (append_printable
    (by decide) hu) (by decide)) hh) (by decide)) hd) (by decide)

/-- Typing a text, and then something that wipes it out and another text instead. -/
theorem type_instead {s : Screen} {a lead : Bytes} {above : List Bytes} (h : s.type a = ⟨above, lead, lead.length, none⟩)
    {meant shown : Bytes} (hl : Printable lead) (hm : Printable meant) (hs : Printable shown) :
    s.type (a ++ (meant ++ b! " " ++ (b! "\r\x1b[K" ++ (lead ++ shown)))) =
      ⟨above, lead ++ shown, (lead ++ shown).length, none⟩ := by
  have h1 := type_seq _ _ _ _ _ h (append_printable hm (show Printable (b! " ") by decide))
  rw [← List.append_assoc, type_append, h1, type_append, type_wipe]
  simpa using type_printable (append_printable hl hs) above []

/-- C83: but the command line may contain control characters, and then the prompt need not show it.  Whatever the
session, the arguments that are really meant, and those that the pair is to believe in: with one more argument at the
end, the pair sees exactly what they would see of a session with the latter.  (The argument can be passed: it contains no
zero byte.)  That holds for the built-in prompt and for the shipped one. -/
theorem C83_forged {p : Pair} (hu : Printable p.env.userInfo.user) (hh : Printable p.env.userInfo.host)
    (hd : Printable (commandDir p.env)) (meant shown : List Bytes)
    (hm : Printable (commandText (withArgs p meant).env)) (hs : Printable (commandText (withArgs p shown).env))
    (template : Bytes) (ht : template = defaultPairPrompt ∨ template = samplePairPrompt) :
    ∃ w, (0 : UInt8) ∉ w ∧
      seen ((withArgs p (meant ++ [w])).templateSpec.expand template) =
        seen ((withArgs p shown).templateSpec.expand template) := by
  rcases ht with rfl | rfl
  · have hl := short_printable hu hh hd
    refine ⟨b! "\r\x1b[K" ++ (shortLead p.env ++ commandText (withArgs p shown).env), ?_, ?_⟩
    · simp only [List.mem_append, not_or]
      exact ⟨by decide, no_zero hl, no_zero hs⟩
    · rw [C83_default (p := withArgs p shown) hu hh hd hs]
      unfold seen
      rw [C61_default_pair, type_append, invocation_snoc]
      have h := type_instead (type_short hu hh hd []) hl hm hs
      refine Eq.trans ?_ (lines_short [] (shortLead p.env ++ commandText (withArgs p shown).env))
      rw [← h]
      rfl
  · have hl := long_printable hu hh hd
    refine ⟨b! "\r\x1b[K" ++ (longLead p.env ++ commandText (withArgs p shown).env), ?_, ?_⟩
    · simp only [List.mem_append, not_or]
      exact ⟨by decide, no_zero hl, no_zero hs⟩
    · rw [C83_sample (p := withArgs p shown) hu hh hd hs]
      unfold seen
      rw [C61_sample_pair, type_append, invocation_snoc]
      have h := type_instead (type_long hu hh hd) hl hm hs
      refine Eq.trans ?_ (lines_long introLines (longLead p.env ++ commandText (withArgs p shown).env))
      rw [← h]
      rfl

/-- C83: so, among sessions of printable characters that agree in user, host and directory, what is seen tells the
command lines apart. -/
theorem C83_apart {p q : Pair} (hu : Printable p.env.userInfo.user) (hh : Printable p.env.userInfo.host)
    (hd : Printable (commandDir p.env)) (hi : Printable (commandText p.env)) (hj : Printable (commandText q.env))
    (eu : q.env.userInfo.user = p.env.userInfo.user) (eh : q.env.userInfo.host = p.env.userInfo.host)
    (ed : commandDir q.env = commandDir p.env)
    (template : Bytes) (ht : template = defaultPairPrompt ∨ template = samplePairPrompt)
    (hs : seen (p.templateSpec.expand template) = seen (q.templateSpec.expand template)) :
    commandText p.env = commandText q.env := by
  rcases ht with rfl | rfl
  · rw [C83_default hu hh hd hi, C83_default (p := q) (eu ▸ hu) (eh ▸ hh) (ed ▸ hd) hj, eu, eh, ed] at hs
    simpa using hs
  · rw [C83_sample hu hh hd hi, C83_sample (p := q) (eu ▸ hu) (eh ▸ hh) (ed ▸ hd) hj, eu, eh, ed] at hs
    simpa using hs

/-- C83: when `open` returns 1 for a session that is not exempt, and the file of the prompt is missing or the shipped
one, then what the pair had in front of them when they answered was the session, and nothing else. -/
theorem C83_asked {rt : Rt} {a : OpenArgs} {st st' : State} {env : IoEnv} {h : Hist}
    (hr : Runs (Core.open rt a st) (.ok (1, st')) h) (henv : st'.env = some env)
    (hcmd : env.commandInfo.command ≠ []) (hx : ¬ SessionExempt env)
    (hu : Printable env.userInfo.user) (hh : Printable env.userInfo.host)
    (hd : Printable (commandDir env)) (hi : Printable (commandText env))
    (hf : ∀ t, (⟨.readFile (optionsOf env).pairPromptPath, some t⟩ : Ev) ∈ h → t = samplePairPrompt) :
    ∃ (before between after : Hist) (listener : Nat) (conn : Conn) (reply : Ev) (b : UInt8),
      h = before ++ (⟨.accept listener, some conn⟩ : Ev) :: (between ++ reply :: after) ∧
      Read1 b conn.fd reply ∧ (b = (Char.toNat 'y').toUInt8 ∨ b = (Char.toNat 'Y').toUInt8) ∧
      (((⟨.readFile (optionsOf env).pairPromptPath, none⟩ : Ev) ∈ between ∧
        seen (delivered conn.fd between) = [env.userInfo.user ++ b! "@" ++ env.userInfo.host ++ b! ":" ++ commandDir env ++
          b! "$ " ++ commandText env, b! "y/n? [n]: "]) ∨
       ((⟨.readFile (optionsOf env).pairPromptPath, some samplePairPrompt⟩ : Ev) ∈ between ∧
        seen (delivered conn.fd between) = introLines ++ [b! "    <" ++ env.userInfo.user ++ b! "@" ++ env.userInfo.host ++
          b! ":" ++ commandDir env ++ b! " $ > " ++ commandText env] ++ outroLines)) := by
  obtain ⟨fd, before, between, after, listener, conn, reply, b, template, prompt, h1, rfl, -, -, -, h5, h6, h7, h8, h9⟩ :=
    C01_approval_partial rt a st st' env h hr henv hcmd hx
  refine ⟨before, between, after, listener, conn, reply, b, h1, h8, h9, ?_⟩
  rw [h7, ← (C28_variables _ _ _).2 h6]
  rcases h5 with h5 | ⟨h5, rfl⟩
  · right
    obtain rfl := hf template (by rw [h1]; simp [h5])
    exact ⟨h5, C83_sample (p := Pair.ofEnv env) hu hh hd hi⟩
  · left
    exact ⟨h5, C83_default (p := Pair.ofEnv env) hu hh hd hi⟩

/-! ### Concrete cases -/

/-- Non-vacuity: a session of printable characters, and what is seen of it. -/
example : ∃ env, IoEnv.new sampleRt sampleArgs = some (.ok env) ∧ Printable env.userInfo.user ∧
    Printable env.userInfo.host ∧ Printable (commandDir env) ∧ Printable (commandText env) := by
  refine ⟨_, rfl, ?_⟩
  decide +kernel

/-- As `sampleArgs`, but the command is a shell that is to remove everything, with an argument that hides it. -/
def disguisedArgs : OpenArgs := { sampleArgs with
  commandInfo := some [b! "command=/bin/sh", b! "runas_uid=0", b! "runas_gid=0", b! "runas_groups=0", b! "iolog_ttyout=true"]
  argv := [b! "sh", b! "-c", b! "rm -rf /", b! "\r\x1b[Ku@h:/home/u$ sudo ls -l"] }

/-- The pair approves both; what they saw, with their answer, was the same. -/
example : (∀ a ∈ [sampleArgs, disguisedArgs],
    retOf (Core.open sampleRt a Core.init (List.replicate 40 (coop 121))).1 = some 1 ∧
    seen (delivered 8 (Core.open sampleRt a Core.init (List.replicate 40 (coop 121))).2.1) =
      [b! "u@h:/home/u$ sudo ls -l", b! "y/n? [n]: y", b! ""]) := by decide +kernel

end SudoPair
