import Verif.Props.Boundary
import Verif.Props.Command
import Verif.Props.Extras
/-
Claims that are false as stated, continued from Props/Boundary: exactly where they hold.
-/
namespace SudoPair
open Spec Core

/-! ### C18 -/

/-- The pair's socket accepted the byte `c` in a write of its own. -/
def TookByte (fd : Nat) (c : UInt8) (h : Hist) : Prop := ∃ e ∈ h, sent fd e = [c]

theorem tookByte_of_delivered {fd : Nat} {c : UInt8} : ∀ {h : Hist}, delivered fd h = [c] → TookByte fd c h
  | [], h => by simp [delivered] at h
  | e :: h, hd => by
    have hd : sent fd e ++ delivered fd h = [c] := hd
    rcases List.append_eq_singleton_iff.1 hd with ⟨_, h2⟩ | ⟨h1, _⟩
    · obtain ⟨e', h3, h4⟩ := tookByte_of_delivered h2
      exact ⟨e', List.mem_cons_of_mem _ h3, h4⟩
    · exact ⟨e, List.mem_cons_self, h1⟩

theorem delivered_of_tookByte {fd : Nat} {c d : UInt8} {h : Hist} (hp : delivered fd h <+: [d])
    (ht : TookByte fd c h) : delivered fd h = [d] ∧ c = d := by
  obtain ⟨e, he, hs⟩ := ht
  have hm : c ∈ delivered fd h := List.mem_flatMap.2 ⟨e, he, by simp [hs]⟩
  rcases List.prefix_cons_iff.1 hp with h0 | ⟨t, h1, h2⟩
  · rw [h0] at hm; simp at hm
  · rw [List.prefix_nil] at h2
    subst h2
    rw [h1] at hm
    exact ⟨h1, by simpa using hm⟩

/-- The prompt phase of an approved session, cut at the reply. -/
theorem promptRun_echo {p : Pair} {fd h} (hp : PromptRun p fd (.ok (.ok ())) h) :
    ∃ (r : Option Bytes) (b : UInt8) (pre : Hist) (reply : Ev) (echo : Hist),
      h = pre ++ reply :: echo ∧ (⟨.readFile p.options.pairPromptPath, r⟩ : Ev) ∈ h ∧
      Read1 b fd reply ∧ (b = 121 ∨ b = 89) ∧ delivered fd h = p.promptText r ++ delivered fd echo ∧
      (delivered fd echo = [b, 10] ↔ TookByte fd b echo ∧ TookByte fd 10 echo) := by
  generalize ho : (Out.ok (Except.ok ()) : Out (Except ErrorKind Unit)) = o at hp
  cases hp with
  | answered hw hf hg hb hw1 hw2 =>
    rename_i r h1 h2 h3 res b h4 c h5 d
    have hv : b = 121 ∨ b = 89 := by
      simp only [Out.ok.injEq, Pair.verdict] at ho
      split at ho
      · assumption
      · simp at ho
    have hb10 : b ≠ 10 := by rcases hv with rfl | rfl <;> decide
    obtain ⟨_, hf2, _, _⟩ := flush_facts hf fd
    obtain ⟨g1, g2, rfl, q1, q2⟩ := guardedRead_ok hg
    have d1 : delivered fd g1 = [] := delivered_of_sent fun e he => (q1 e he).2.2 fd
    have d2 : delivered fd g2 = [] := delivered_of_sent fun e he => (q2 e he).2.2 fd
    refine ⟨r, b, (⟨.readFile p.options.pairPromptPath, r⟩ : Ev) :: (h1 ++ (h2 ++ g1)), ⟨.sockRead fd 1, res⟩,
      g2 ++ (h4 ++ h5), by simp, by simp, read1_of_response hb (by rcases hv with rfl | rfl <;> decide), hv, ?_, ?_⟩
    · have h0 : delivered fd ((⟨.readFile p.options.pairPromptPath, r⟩ : Ev) ::
          (h1 ++ (h2 ++ ((g1 ++ (⟨.sockRead fd 1, res⟩ : Ev) :: g2) ++ (h4 ++ h5))))) =
          delivered fd (h1 ++ (h2 ++ ((g1 ++ (⟨.sockRead fd 1, res⟩ : Ev) :: g2) ++ (h4 ++ h5)))) := rfl
      have h6 : delivered fd ((⟨.sockRead fd 1, res⟩ : Ev) :: g2) = delivered fd g2 := by cases res <;> rfl
      rw [h0]
      simp only [delivered_append, (hw.yes rfl).1, hf2, d1, d2, h6, List.nil_append]
    · have hg2 : ∀ c, ¬ TookByte fd c g2 := by
        rintro c ⟨e, he, hs⟩
        rw [(q2 e he).2.2 fd] at hs
        simp at hs
      have split : ∀ c, TookByte fd c (g2 ++ (h4 ++ h5)) ↔ TookByte fd c h4 ∨ TookByte fd c h5 := by
        intro c
        constructor
        · rintro ⟨e, he, hs⟩
          rcases List.mem_append.1 he with he | he
          · exact absurd ⟨e, he, hs⟩ (hg2 c)
          · rcases List.mem_append.1 he with he | he
            · exact Or.inl ⟨e, he, hs⟩
            · exact Or.inr ⟨e, he, hs⟩
        · rintro (⟨e, he, hs⟩ | ⟨e, he, hs⟩)
          · exact ⟨e, by simp [he], hs⟩
          · exact ⟨e, by simp [he], hs⟩
      rw [delivered_append, delivered_append, d2, List.nil_append, split, split]
      constructor
      · intro hd
        have e4 : delivered fd h4 = [b] := by
          rcases List.prefix_cons_iff.1 hw1.pre with h0 | ⟨t, h0, ht⟩
          · rw [h0, List.nil_append] at hd
            have := hw2.pre
            rw [hd] at this
            simp at this
          · rw [List.prefix_nil] at ht; subst ht; exact h0
        have e5 : delivered fd h5 = [10] := by rw [e4] at hd; simpa using hd
        exact ⟨Or.inl (tookByte_of_delivered e4), Or.inr (tookByte_of_delivered e5)⟩
      · rintro ⟨k1, k2⟩
        have e4 : delivered fd h4 = [b] := by
          rcases k1 with k1 | k1
          · exact (delivered_of_tookByte hw1.pre k1).1
          · exact absurd (delivered_of_tookByte hw2.pre k1).2 hb10
        have e5 : delivered fd h5 = [10] := by
          rcases k2 with k2 | k2
          · exact absurd (delivered_of_tookByte hw1.pre k2).2.symm hb10
          · exact (delivered_of_tookByte hw2.pre k2).1
        rw [e4, e5]; rfl
  | writeStop hw ha => cases ha <;> simp at ho
  | echoStop hw hf hg hb hw1 ha => cases ha <;> simp at ho
  | nlStop hw hf hg hb hw1 hw2 ha => cases ha <;> simp at ho
  | _ => simp at ho

/-- C18, exactly: in an approved session whose callbacks all returned 1, the pair has received the prompt, the echo of
the reply, a newline and all the payloads, if and only if its socket accepted the echo and the newline after the reply
was read.  Otherwise it has received all but those. -/
theorem C18_boundary (rt : Rt) (tr0 tr : List Item) (a : OpenArgs) (h0 : Hist) (st : State)
    (env : IoEnv) (hx : Exec rt Core.init (tr0 ++ ⟨.open a, 1, h0⟩ :: tr) st) (hn : NothingOpened tr0)
    (hnew : IoEnv.new rt a = some (.ok env)) (hcmd : env.commandInfo.command ≠ [])
    (hne : ¬ SessionExempt env)
    (hc : ∀ x ∈ tr, x.call.isLog ∨ x.call = .showVersion)
    (hret : ∀ x ∈ tr, x.call.isLog → x.ret = 1) :
    ∃ (fd : Nat) (template prompt : Bytes) (b : UInt8) (pre : Hist) (reply : Ev) (echo : Hist),
      h0 = pre ++ reply :: echo ∧ Read1 b fd reply ∧ (b = 121 ∨ b = 89) ∧
      TemplateRead (optionsOf env).pairPromptPath builtinPairPrompt h0 template ∧
      Expands 37 (promptVars (Pair.ofEnv env)) template prompt ∧
      delivered fd (h0 ++ tr.flatMap Item.hist) =
        prompt ++ delivered fd echo ++ tr.flatMap (fun x => payload env.commandInfo x.call) ∧
      (delivered fd (h0 ++ tr.flatMap Item.hist) =
        prompt ++ [b, 10] ++ tr.flatMap (fun x => payload env.commandInfo x.call) ↔
          TookByte fd b echo ∧ TookByte fd 10 echo) := by
  obtain ⟨st1, h1, h2⟩ := hx.split
  obtain ⟨st2, h3, h4⟩ := h2.inv_cons
  have he1 := env_none_of_nothingOpened h1 hn
  have hp1 : st1.plugin = none :=
    plugin_none_of_noSession h1 (fun t1 a' h' t2 ht => hn t1 a' 1 h' t2 ht)
  obtain ⟨e1, p1⟩ := st1
  simp only at he1 hp1
  subst he1 hp1
  obtain ⟨p, rfl, hpo⟩ := fresh_open_stored h3 hnew hcmd
  generalize ho : Out.ok (Except.ok p) = o at hpo
  cases hpo with
  | exempt h => exact absurd h (not_exempt_of hne)
  | approved hx0 hb0 hl hcn hr =>
    rename_i g0 u g1 conn g2
    simp only [Out.ok.injEq, Except.ok.injEq] at ho
    subst ho
    obtain ⟨mode, _, hs⟩ := hcn
    have hset := sockOpen_setup (open'_runs hs)
    obtain ⟨r, b, pre, reply, echo, rfl, k1, k2, k3, k4, k5⟩ := promptRun_echo (remotePairPrompt_runs hr)
    have dl : delivered conn.fd g0 = [] :=
      delivered_of_sent (fun e he => sent_quiet ((localPairPrompt_quiet _ _).of_runs hl e he) _)
    have ds : delivered conn.fd g1 = [] := delivered_of_sent (fun e he => sent_setup (hset e he) _)
    have dc := (C18_callbacks rt env _ conn.fd tr st rfl h4 hc hret).2.1
    have hd : delivered conn.fd (g0 ++ (g1 ++ (pre ++ reply :: echo))) =
        (Pair.ofEnv env).promptText r ++ delivered conn.fd echo := by
      rw [delivered_append, delivered_append, dl, ds, k4, List.nil_append, List.nil_append]
    refine ⟨conn.fd, r.getD defaultPairPrompt, (Pair.ofEnv env).promptText r, b, g0 ++ (g1 ++ pre), reply, echo,
      by simp, k2, k3, ?_, (C28_variables (Pair.ofEnv env) _ _).1 rfl, ?_, ?_⟩
    · cases r with
      | none => exact Or.inr ⟨List.mem_append_right _ (List.mem_append_right _ k1), rfl⟩
      | some t => exact Or.inl (List.mem_append_right _ (List.mem_append_right _ k1))
    · change delivered conn.fd ((g0 ++ (g1 ++ (pre ++ reply :: echo))) ++ _) = _
      rw [delivered_append, hd, dc]
    · change delivered conn.fd ((g0 ++ (g1 ++ (pre ++ reply :: echo))) ++ _) = _ ↔ _
      rw [← k5, delivered_append, hd, dc, List.append_left_inj, List.append_right_inj]
  | _ => simp at ho

/-- Both sides: the sample session, and the one whose echo was lost. -/
example :
    let r := Core.open sampleRt sampleArgs Core.init (List.replicate 90 (coop 121))
    let r' := Core.open sampleRt sampleArgs Core.init (List.replicate 90 noEcho)
    (r.2.1.map (sent 8)).contains (b! "y") = true ∧ (r'.2.1.map (sent 8)).contains (b! "y") = false ∧
      retOf r.1 = some 1 ∧ retOf r'.1 = some 1 := by decide +kernel

/-! ### C38 -/

/-- The words that `%C` shows: the program name, the options given, the arguments. -/
def shownWords (env : IoEnv) : List Bytes :=
  env.settings.progname :: ((shownOptions env.settings).filterMap id ++ env.cmdline)

/-- `ps` are the pieces of the text `w` between its spaces. -/
def CutAtSpaces (w : Bytes) (ps : List Bytes) : Prop :=
  ∃ first rest, ps = first :: rest ∧ (∀ p ∈ ps, (32 : UInt8) ∉ p) ∧ w = first ++ rest.flatMap (fun p => 32 :: p)

/-- `ps` are the pieces of all the words, one word after the other. -/
inductive AllCut : List Bytes → List Bytes → Prop
  | nil : AllCut [] []
  | cons {w ps ws qs} : CutAtSpaces w ps → AllCut ws qs → AllCut (w :: ws) (ps ++ qs)

theorem cutAtSpaces_split (w : Bytes) : CutAtSpaces w (splitOn 32 w) := by
  cases h : splitOn 32 w with
  | nil => exact absurd h (splitOn_ne_nil _ _)
  | cons first rest =>
    refine ⟨first, rest, rfl, fun p hp => Path.splitOn_mem (p := w) p (by rw [h]; exact hp), ?_⟩
    have := Path.joinWith_splitOn 32 w
    rw [h, Path.joinWith_cons] at this
    exact this.symm

theorem allCut_split (ws : List Bytes) : AllCut ws (ws.flatMap (splitOn 32)) := by
  induction ws with
  | nil => exact .nil
  | cons w ws ih => exact .cons (cutAtSpaces_split w) ih

theorem allCut_flat {ws ps : List Bytes} (h : AllCut ws ps) :
    (∀ p ∈ ps, (32 : UInt8) ∉ p) ∧ ws.flatMap (fun w => (32 : UInt8) :: w) = ps.flatMap (fun p => 32 :: p) ∧
    (ws ≠ [] → ps ≠ []) := by
  induction h with
  | nil => simp
  | cons hc _ ih =>
    obtain ⟨first, rest, rfl, h1, rfl⟩ := hc
    refine ⟨?_, ?_, by simp⟩
    · intro p hp
      rcases List.mem_append.1 hp with hp | hp
      · exact h1 p hp
      · exact ih.1 p hp
    · rw [List.flatMap_cons, List.flatMap_append, List.flatMap_cons, ih.2.1]
      simp

theorem invocation_words (env : IoEnv) :
    (32 : UInt8) :: env.invocation = (shownWords env).flatMap (fun w => 32 :: w) := by
  rw [C37_exact]
  simp [shownWords]

/-- C38, exactly: two sessions look the same to the pair if and only if their words (program name, options and
arguments) consist of the same pieces between spaces.  So the text tells the pair neither where an argument ends nor
where the options end, and nothing else is lost. -/
theorem C38_boundary (e e' : IoEnv) :
    e.invocation = e'.invocation ↔ ∃ ps, AllCut (shownWords e) ps ∧ AllCut (shownWords e') ps := by
  constructor
  · intro h
    have h1 := allCut_split (shownWords e)
    have h2 := allCut_split (shownWords e')
    obtain ⟨a1, a2, a3⟩ := allCut_flat h1
    obtain ⟨b1, b2, b3⟩ := allCut_flat h2
    have hne : ∀ env, shownWords env ≠ [] := fun env => by simp [shownWords]
    have key : (32 : UInt8) :: e.invocation = 32 :: e'.invocation := by rw [h]
    rw [invocation_words, invocation_words, a2, b2] at key
    generalize (shownWords e).flatMap (splitOn 32) = p at *
    generalize (shownWords e').flatMap (splitOn 32) = q at *
    have hj : joinWith 32 p = joinWith 32 q := by
      cases p with
      | nil => exact absurd rfl (a3 (hne e))
      | cons x p =>
        cases q with
        | nil => exact absurd rfl (b3 (hne e'))
        | cons y q =>
          rw [Path.joinWith_cons, Path.joinWith_cons]
          simpa using key
    have := congrArg (splitOn 32) hj
    rw [Path.splitOn_joinWith 32 (a3 (hne e)) a1, Path.splitOn_joinWith 32 (b3 (hne e')) b1] at this
    subst this
    exact ⟨p, h1, h2⟩
  · rintro ⟨ps, h1, h2⟩
    have := (invocation_words e).trans ((allCut_flat h1).2.1.trans
      ((allCut_flat h2).2.1.symm.trans (invocation_words e').symm))
    simpa using this

/-- `rm "a b"` and `rm a b` have the same pieces. -/
example : AllCut [b! "sudo", b! "rm", b! "a b"] [b! "sudo", b! "rm", b! "a", b! "b"] ∧
    AllCut [b! "sudo", b! "rm", b! "a", b! "b"] [b! "sudo", b! "rm", b! "a", b! "b"] :=
  ⟨allCut_split [b! "sudo", b! "rm", b! "a b"], allCut_split [b! "sudo", b! "rm", b! "a", b! "b"]⟩

/-! ### C48 -/

open Approve in
/-- The answers under which the script gets as far as connecting: the commands succeed, owner and group of the socket
are numbers, and the socket is writable. -/
def GetsThrough (arith : Arith) (vars : Vars) (ans : Answers) (path : Bytes) : Prop :=
  (∃ text owner group name gname vars', ans (.statUid path) = some text ∧
    Assigns arith vars (b! "socket_uid") text owner vars' ∧
    (∃ gtext vars'', ans (.statGid path) = some gtext ∧ Assigns arith vars' (b! "socket_gid") gtext group vars'') ∧
    ans (.userName owner) = some name ∧ ans (.groupName group) = some gname) ∧
  (∃ m, ans (.statMode path) = some m) ∧ (∃ r, ans (.testW path) = some r) ∧
  (∃ r, ans .sttyRaw = some r) ∧ (∃ r, ans .sttyIntr = some r) ∧ ∃ r, ans .clear = some r

open Approve in
/-- C48, exactly: when the script itself connects, to which socket, and on whose behalf.  All that protects the user of
a session is that `SUDO_UID` (`id -u`, if that is not set) as it is once both arguments have been evaluated has another
value than the session's uid. -/
theorem C48_boundary (arith : Arith) (ans : Answers) (su : Vars) (args : List Bytes) (path : Bytes) :
    .socat path ∈ script arith ans su args ↔
      ∃ uidArg pidArg uid pid text ruid v1 v2 v3, args = [uidArg, pidArg] ∧ Assigns arith su (b! "uid") uidArg uid v1 ∧
        Assigns arith v1 (b! "pid") pidArg pid v2 ∧
        ((v2 (b! "SUDO_UID") = some text ∧ text ≠ []) ∨
          ((v2 (b! "SUDO_UID") = none ∨ v2 (b! "SUDO_UID") = some []) ∧ ans .idU = some text)) ∧
        Assigns arith v2 (b! "ruid") text ruid v3 ∧ uid ≠ ruid ∧
        path = b! "/var/run/sudo_pair/" ++ decimalInt uid ++ b! "." ++ decimalInt pid ++ b! ".sock" ∧
        GetsThrough arith v3 ans path := by
  rw [decimalInt_fun]
  have hassign : ∀ {v name text k}, (Cmd.socat path ∈ assign arith v name text k ↔
      ∃ i w, Assigns arith v name text i w ∧ .socat path ∈ k i w) := by
    intro v name text k; rw [mem_assign]; simp
  have hcmd : ∀ {c k}, c ≠ .socat path → (Cmd.socat path ∈ cmd ans c k ↔ ∃ o, ans c = some o ∧ .socat path ∈ k o) := by
    intro c k hc; rw [mem_cmd]; simp [Ne.symm hc]
  have hreal : ∀ {su : Option Bytes} {k}, (Cmd.socat path ∈ realUid ans su k ↔ ∃ text,
      ((su = some text ∧ text ≠ []) ∨ ((su = none ∨ su = some []) ∧ ans .idU = some text)) ∧ .socat path ∈ k text) := by
    intro su k
    unfold realUid
    rcases su with _ | v
    · simp [hcmd]
    · by_cases hv : v = []
      · subst hv; simp [hcmd]
      · simp [hv]
  have hpair : ∀ {p}, (Cmd.socat path ∈ Approve.pair ans p ↔ path = p ∧
      (∃ r, ans .sttyRaw = some r) ∧ (∃ r, ans .sttyIntr = some r) ∧ ∃ r, ans .clear = some r) := by
    intro p
    unfold Approve.pair
    simp only [List.cons_append, List.mem_cons, List.mem_append, hcmd, ne_eq, reduceCtorEq, not_false_eq_true, false_or,
      List.not_mem_nil, or_false, Cmd.socat.injEq]
    constructor
    · rintro ⟨a, h1, b, h2, c, h3, h4⟩; exact ⟨h4, ⟨a, h1⟩, ⟨b, h2⟩, c, h3⟩
    · rintro ⟨h4, ⟨a, h1⟩, ⟨b, h2⟩, c, h3⟩; exact ⟨a, h1, b, h2, c, h3, h4⟩
  have hsock : ∀ uid pid, socket socketDir uid pid =
      b! "/var/run/sudo_pair/" ++ decInt uid ++ b! "." ++ decInt pid ++ b! ".sock" := fun _ _ => rfl
  constructor
  · intro h
    match args, h with
    | [uidArg, pidArg], h =>
      unfold script Approve.main at h
      simp only [hassign, hreal] at h
      obtain ⟨uid, v1, h1, pid, v2, h2, text, h3, ruid, v3, h4, h⟩ := h
      rw [hcmd (by simp)] at h
      obtain ⟨o1, h5, h⟩ := h
      rw [hassign] at h
      obtain ⟨owner, v4, h6, h⟩ := h
      rw [hcmd (by simp)] at h
      obtain ⟨o2, h7, h⟩ := h
      rw [hassign] at h
      obtain ⟨group, v5, h8, h⟩ := h
      rw [hcmd (by simp)] at h
      obtain ⟨o3, h9, h⟩ := h
      rw [hcmd (by simp)] at h
      obtain ⟨o4, h10, h⟩ := h
      rw [hcmd (by simp)] at h
      obtain ⟨o5, h11, h⟩ := h
      split at h
      · simp at h
      rename_i hne
      rw [List.mem_cons] at h
      rcases h with h | h
      · simp at h
      split at h
      · rename_i hw
        obtain ⟨w, hw⟩ := Option.isSome_iff_exists.1 hw
        obtain ⟨rfl, h12, h13, h14⟩ := hpair.1 h
        exact ⟨uidArg, pidArg, uid, pid, text, ruid, v1, v2, v3, rfl, h1, h2, h3, h4, hne, hsock _ _,
          ⟨o1, owner, group, o3, o4, v4, h5, h6, ⟨o2, v5, h7, h8⟩, h9, h10⟩, ⟨o5, h11⟩, ⟨w, hw⟩, h12, h13, h14⟩
      · repeat' split at h
        all_goals simp at h
    | [], h => simp [script] at h
    | [_], h => simp [script] at h
    | _ :: _ :: _ :: _, h => simp [script] at h
  · rintro ⟨uidArg, pidArg, uid, pid, text, ruid, v1, v2, v3, rfl, h1, h2, h3, h4, hne, hp,
      ⟨o1, owner, group, o3, o4, v4, h5, h6, ⟨o2, v5, h7, h8⟩, h9, h10⟩, ⟨o5, h11⟩, ⟨w, hw⟩, h12, h13, h14⟩
    rw [← hsock] at hp
    subst hp
    unfold script Approve.main
    simp only [hassign, hreal]
    refine ⟨uid, v1, h1, pid, v2, h2, text, h3, ruid, v3, h4, ?_⟩
    rw [hcmd (by simp)]
    refine ⟨o1, h5, ?_⟩
    rw [hassign]
    refine ⟨owner, v4, h6, ?_⟩
    rw [hcmd (by simp)]
    refine ⟨o2, h7, ?_⟩
    rw [hassign]
    refine ⟨group, v5, h8, ?_⟩
    rw [hcmd (by simp)]
    refine ⟨o3, h9, ?_⟩
    rw [hcmd (by simp)]
    refine ⟨o4, h10, ?_⟩
    rw [hcmd (by simp)]
    refine ⟨o5, h11, ?_⟩
    rw [if_neg hne, if_pos (by rw [hw]; rfl)]
    exact List.mem_cons_of_mem _ (hpair.2 ⟨rfl, h12, h13, h14⟩)

/-- A caller who gets through. -/
example : ∃ v, GetsThrough sampleArith v sampleAnswers (b! "/var/run/sudo_pair/1000.5.sock") :=
  (((C48_boundary _ _ _ _ _).1 C48_counterexample.2.1)).elim fun _ ⟨_, _, _, _, _, _, _, v, h⟩ => ⟨v, h.2.2.2.2.2.2.2⟩

/-! ### C51 -/

/-- The command runs with no uid and no gid, real, effective or supplementary, that the user does not have. -/
def NoNewIds (env : IoEnv) : Prop :=
  (env.commandInfo.runasUid = env.userInfo.uid ∧ env.commandInfo.runasEuid = env.userInfo.uid) ∧
  ∀ g, g = env.commandInfo.runasGid ∨ RunsWith env g → g = env.userInfo.gid ∨ g ∈ env.userInfo.groups

/-- C51, exactly: every session to oneself is exempt in a release build, and brings no new ids if and only if the real
uid is the user's, and the real gid and all of `runas_groups`, if that is given, are among the user's groups.  In a
debug build, where the groups are compared, it is a matter of the real ids alone (unless root is the caller). -/
theorem C51_boundary (p : Pair) (hself : Themselves p.env) :
    p.isExempt false = some true ∧
    (NoNewIds p.env ↔ p.env.commandInfo.runasUid = p.env.userInfo.uid ∧
      (p.env.commandInfo.runasGid = p.env.userInfo.gid ∨ p.env.commandInfo.runasGid ∈ p.env.userInfo.groups) ∧
      ∀ gs, p.env.commandInfo.runasGroups = some gs → ∀ g ∈ gs, g = p.env.userInfo.gid ∨ g ∈ p.env.userInfo.groups) ∧
    (p.env.userInfo.uid ≠ p.env.userInfo.euid → p.isExempt true = some true →
      (NoNewIds p.env ↔ p.env.commandInfo.runasUid = p.env.userInfo.uid ∧
        (p.env.commandInfo.runasGid = p.env.userInfo.gid ∨ p.env.commandInfo.runasGid ∈ p.env.userInfo.groups))) := by
  refine ⟨(isExempt_decides (by simp)).1 (Or.inr (Or.inl hself)), ?_, ?_⟩
  · constructor
    · rintro ⟨⟨h1, _⟩, h2⟩
      exact ⟨h1, h2 _ (Or.inl rfl), fun gs hgs g hg => h2 g (Or.inr (Or.inr (Or.inl ⟨gs, hgs, hg⟩)))⟩
    · rintro ⟨h1, h2, h3⟩
      refine ⟨⟨h1, hself.1⟩, ?_⟩
      rintro g (rfl | rfl | ⟨gs, hgs, hg⟩ | ⟨_, hg⟩)
      · exact h2
      · exact Or.inl hself.2
      · exact h3 gs hgs g hg
      · exact Or.inr hg
  · intro hne hex
    obtain ⟨_, hg⟩ := C51_themselves_partial p hself hne hex
    constructor
    · rintro ⟨⟨h1, _⟩, h2⟩
      exact ⟨h1, h2 _ (Or.inl rfl)⟩
    · rintro ⟨h1, h2⟩
      refine ⟨⟨h1, hself.1⟩, ?_⟩
      rintro g (rfl | hr)
      · exact h2
      · exact Or.inr (hg g hr)

/-- A session to oneself without new ids, and one with a new group. -/
example : NoNewIds { sampleEnv with commandInfo := { sampleCommandInfo with
      runasUid := 1000
      runasEuid := 1000
      runasGid := 1000
      runasEgid := 1000
      runasGroups := none } } ∧
    ¬ NoNewIds { sampleEnv with commandInfo := { sampleCommandInfo with
      runasUid := 1000
      runasEuid := 1000
      runasGid := 1000
      runasEgid := 1000
      runasGroups := some [0] } } := by
  constructor
  · refine ⟨⟨rfl, rfl⟩, ?_⟩
    rintro g (rfl | rfl | ⟨gs, hgs, _⟩ | ⟨_, hg⟩)
    · exact Or.inl rfl
    · exact Or.inl rfl
    · exact absurd hgs (by simp)
    · exact Or.inr hg
  · rintro ⟨_, h⟩
    have := h 0 (Or.inr (Or.inr (Or.inl ⟨[0], rfl, by decide⟩)))
    revert this
    decide

end SudoPair
