import Verif.Proofs.MemQuiet2
import Verif.Proofs.GenSize
import Verif.Props.BuildSource
import Verif.Props.GenMain
/-!
# C71: the source text of the command that generates the table, executed according to the language specification

The function `main` of `Model/GenMain.lean` and the text that `printSource` of `Model/GenPrint.lean` gives, which C53 and C65 are about, were
written down by hand after charprops/generate.go. Here the text of that file is executed by the interpreter of C67, together with the files
that it uses: from the opening of the data files to the writing of property_table_raw.go and the exit status.
-/

namespace Textseg.Props
open Textseg Spec GoMem
open Textseg.GoLang (Halt Effect)

section
variable {prog : Program} {m : Machine}

theorem session_main (L d : Nat) : commandSession gentable m L (d + 2) [] = R m L (d + 2) (.func (name! "main") (name! "main") []) heap0 := by
  simp only [commandSession, bind_apply, init_gentable, bindR_ok]
  rfl

theorem session_build (base : GoString) (L d : Nat) : buildSession gentable m L (d + 2) base [] =
    R m L (d + 2) (.func (name! "gentable") (name! "BuildRawPropertyTree") [.str base]) heap0 := by
  simp only [buildSession, bind_apply, init_gentable, bindR_ok]
  rfl

/-- If no table is built, no table is written. -/
theorem fails_of_build {e : GoErr} (h : BuildFails gentable m (str "ucd") e) :
    CommandEnds gentable m (statusAfter m (errorMessage m e) 1) [errorMessage m e] := by
  obtain ⟨b, h⟩ := h
  refine ⟨b + 3, fun L depth hL hd => ?_⟩
  obtain ⟨v, h', hb, s, s', rfl, -⟩ := h L (depth - 1) (by omega) (by omega)
  obtain ⟨d, rfl⟩ : ∃ d, depth = d + 3 := ⟨depth - 3, by omega⟩
  rw [show d + 3 - 1 = d + 2 by omega, session_build] at hb
  rw [session_main, main_error m L (d + 1) heap0 h' _ e hb, build_effects hb]
  rfl

theorem panics_of_build (h : ∀ killed, BuildPanics gentable { m with killed := killed } (str "ucd")) : CommandPanics gentable m := by
  intro killed
  obtain ⟨b, h⟩ := h killed
  refine ⟨b + 3, fun L depth hL hd => ?_⟩
  obtain ⟨p, hb⟩ := h L (depth - 1) (by omega) (by omega)
  obtain ⟨d, rfl⟩ : ∃ d, depth = d + 3 := ⟨depth - 3, by omega⟩
  rw [show d + 3 - 1 = d + 2 by omega, session_build] at hb
  exact ⟨p, by rw [session_main]; exact main_panic _ L (d + 1) heap0 hb⟩

theorem ends_of_build (hW : 32 ≤ m.W) {raw : Gen.RawPropertyTree}
    (h : ∀ killed, BuildReturns gentable { m with killed := killed } (str "ucd") raw.Indices raw.Properties)
    (hI : raw.Indices.length < 20000000) (hP : raw.Properties.length < 20000000) :
    match Gen.printSource raw with
    | .error _ => CommandPanics gentable m
    | .ok buf => CommandEnds gentable m (writeEnd m [] buf).1 (writeEnd m [] buf).2 := by
  have key : ∀ killed, ∃ b, ∀ L depth, b ≤ L → b ≤ depth → match Gen.printSource raw with
      | .error p => commandSession gentable { m with killed := killed } L depth [] = .error (.panic p)
      | .ok buf => processEnd (commandSession gentable { m with killed := killed } L depth []) = some (writeEnd { m with killed := killed } [] buf) := by
    intro killed
    obtain ⟨b, h⟩ := h killed
    refine ⟨b + 20000003, fun L depth hL hd => ?_⟩
    obtain ⟨v, h', hb, hr⟩ := h L (depth - 1) (by omega) (by omega)
    obtain ⟨d, rfl⟩ : ∃ d, depth = d + 3 := ⟨depth - 3, by omega⟩
    rw [show d + 3 - 1 = d + 2 by omega, session_build] at hb
    have := main_ok { m with killed := killed } L (d + 1) heap0 h' hW v raw hb hr hI hP (by omega)
    rw [build_effects hb] at this
    rw [session_main]
    exact this
  split
  · next p e =>
    rw [e] at key
    intro killed
    obtain ⟨b, key⟩ := key killed
    exact ⟨b, fun L depth hL hd => ⟨p, key L depth hL hd⟩⟩
  · next buf e =>
    rw [e] at key
    exact key m.killed

theorem ends_unique {s s' : Nat} {es es' : List Effect} (h1 : CommandEnds prog m s es) (h2 : CommandEnds prog m s' es') : s = s' ∧ es = es' := by
  obtain ⟨b, h1⟩ := h1
  obtain ⟨b', h2⟩ := h2
  have e1 := h1 (b + b') (b + b') (by omega) (by omega)
  have e2 := h2 (b + b') (b + b') (by omega) (by omega)
  rw [e1] at e2
  cases e2
  exact ⟨rfl, rfl⟩

theorem ends_not_panics {s : Nat} {es : List Effect} (h1 : CommandEnds prog m s es) (h2 : CommandPanics prog m) : False := by
  obtain ⟨b, h1⟩ := h1
  obtain ⟨b', h2⟩ := h2 m.killed
  have e1 := h1 (b + b') (b + b') (by omega) (by omega)
  obtain ⟨p, e2⟩ := h2 (b + b') (b + b') (by omega) (by omega)
  rw [show commandSession prog m _ _ [] = _ from e2] at e1
  cases e1

theorem _root_.Textseg.Spec.Opens.kill {d : GoString} {id1 id2 id3 : Nat} (h : Opens m d id1 id2 id3) (killed : Effect → Bool) :
    Opens { m with killed := killed } d id1 id2 id3 := ⟨h.1, h.2, h.3⟩

theorem _root_.Textseg.Spec.Scans.kill {σ : Type} {read : Reader σ} {id pos : Nat} {s : Scanner σ} (h : Scans m id pos read s)
    (killed : Effect → Bool) : Scans { m with killed := killed } id pos read s := ⟨h.1, h.2⟩

theorem statusAfter_ne {e : Effect} {s : Nat} (hs : s ≠ 0) : statusAfter m e s ≠ 0 := by
  unfold statusAfter; split
  · decide
  · exact hs

theorem statusAfter_runs (h : NeverKilled m) (e : Effect) (s : Nat) : statusAfter m e s = s := by
  unfold statusAfter; rw [h e]; rfl

end

section
variable (prog : Program) (hp : parseMem gentableSources = some prog) (m : Machine)
include hp

/-- **C71.** If one of the data files cannot be opened, the command prints the error of `os.Open` for the first of them that cannot, and ends
with the status 1 (unless it is killed after the message); it writes no file. -/
theorem C71_open (n : Nat) (h : OpenFails m (str "ucd") n) :
    CommandEnds prog m (statusAfter m (errorMessage m (.os n)) 1) [errorMessage m (.os n)] := by
  have hf := C69_open prog hp m (str "ucd") n h
  cases is_gentable hp
  exact fails_of_build hf

variable (hW : 32 ≤ m.W)
include hW

section
variable {σ : Type} {read : Reader σ} {id1 id2 id3 : Nat} {rd1 rd2 rd3 : σ}
  (ho : Opens m (str "ucd") id1 id2 id3) (s1 : Scans m id1 0 read (newScanner rd1 0)) (s2 : Scans m id2 0 read (newScanner rd2 0))
  (s3 : Scans m id3 0 read (newScanner rd3 0))
include ho s1 s2 s3

/-- **C71.** Whatever the data files contain and however they are delivered: if the model of the builder returns a table, and the model of
`main` prints the text `buf` for it, then executing the source text formats just this text; if the formatter rejects it, or
property_table_raw.go cannot be created, the command prints that error and ends with the status 1; otherwise it ends with the status 0 and has
written as much of the formatted text to property_table_raw.go as the system accepts. (If the process is killed, after the message, or when
the file has been created, or when some of the text has been written, it has done this and no more.) If the model of `main` finds that the indices
do not fit into a byte, the command panics, without having done anything that is seen. If the model of the builder returns an error in a file, the command prints the error with the name of this file
and ends with the status 1, without having written a file; if the model panics, the command panics, without having done anything that is seen. -/
theorem C71_command (fuel : Nat) :
    match Gen.readTree read fuel rd1 rd2 rd3 with
    | .ok (.ok raw) =>
      match Gen.printSource raw with
      | .error _ => CommandPanics prog m
      | .ok buf =>
        match m.format buf, m.create tableName with
        | .error t, _ => CommandEnds prog m (statusAfter m (errorMessage m (.text t)) 1) [errorMessage m (.text t)]
        | .ok _, .error n => CommandEnds prog m (statusAfter m (errorMessage m (.os n)) 1) [errorMessage m (.os n)]
        | .ok src, .ok () =>
          if m.killed (.file tableName []) then CommandEnds prog m 137 [.file tableName []]
          else CommandEnds prog m (statusAfter m (.file tableName (src.take (m.write src))) 0) [.file tableName (src.take (m.write src))]
    | .ok (.error (.reading file e)) =>
      CommandEnds prog m (statusAfter m (errorMessage m (readingError m file e)) 1) [errorMessage m (readingError m file e)]
    | .ok (.error _) => False
    | .error q => q ≠ .outOfFuel → CommandPanics prog m := by
  have hb' := fun killed => C69_build prog hp { m with killed := killed } hW (ho.kill killed) (s1.kill killed) (s2.kill killed) (s3.kill killed) fuel
  have hb := C69_build prog hp m hW ho s1 s2 s3 fuel
  cases is_gentable hp
  rcases e : Gen.readTree read fuel rd1 rd2 rd3 with q | (er | raw)
  · rw [e] at hb'
    exact fun hq => panics_of_build fun killed => hb' killed hq
  · rw [e] at hb
    cases er with
    | reading file e => exact fails_of_build hb
    | os => exact hb
    | format => exact hb
  · rw [e] at hb'
    obtain ⟨hI, hP⟩ := Gen.build_size (Gen.readTree_ok.mp e)
    have := ends_of_build hW hb' hI hP
    dsimp only
    split
    · next e => rw [e] at this; exact this
    · next buf e =>
      rw [e] at this
      simp only [writeEnd, List.nil_append] at this
      rcases e1 : m.format buf with t | src
      · rw [e1] at this
        exact this
      · rw [e1] at this
        rcases e2 : m.create tableName with n | _
        · rw [show m.create (str "property_table_raw.go") = _ from e2] at this
          exact this
        · rw [show m.create (str "property_table_raw.go") = _ from e2] at this
          dsimp only at this ⊢
          rcases e3 : m.killed (.file tableName []) with _ | _
          · rw [show m.killed (.file (str "property_table_raw.go") []) = _ from e3] at this
            exact this
          · rw [show m.killed (.file (str "property_table_raw.go") []) = _ from e3] at this
            exact this

/-- **C71.** Whatever the data files contain, whatever the operating system answers and whenever the process is killed: if the command ends, then
it has done one thing that is seen from outside; it has printed a message, and its status is not 0, or it has created property_table_raw.go, and
the file is a beginning of the complete new text (the formatted text for the table that the model of the builder returns). -/
theorem C71_killed (fuel : Nat) (hfuel : Gen.readTree read fuel rd1 rd2 rd3 ≠ .error .outOfFuel) (status : Nat) (effects : List Effect)
    (h : CommandEnds prog m status effects) :
    (∃ e, effects = [errorMessage m e] ∧ (status = 1 ∨ status = 137)) ∨
    ∃ raw buf src content, Gen.readTree read fuel rd1 rd2 rd3 = .ok (.ok raw) ∧ Gen.printSource raw = .ok buf ∧ m.format buf = .ok src ∧
      effects = [.file tableName content] ∧ content <+: src ∧ (status = 0 ∨ status = 137) := by
  have hc := C71_command prog hp m hW ho s1 s2 s3 fuel
  have hst : ∀ e s, statusAfter m e s = s ∨ statusAfter m e s = 137 := by
    intro e s; unfold statusAfter; split
    · exact .inr rfl
    · exact .inl rfl
  rcases hb : Gen.readTree read fuel rd1 rd2 rd3 with q | (er | raw)
  · rw [hb] at hc
    exact (ends_not_panics h (hc fun e => hfuel (by rw [hb, e]))).elim
  · rw [hb] at hc
    cases er with
    | reading file e =>
      obtain ⟨rfl, rfl⟩ := ends_unique h hc
      exact .inl ⟨_, rfl, hst _ _⟩
    | os => exact hc.elim
    | format => exact hc.elim
  · rw [hb] at hc
    dsimp only at hc
    split at hc
    · exact (ends_not_panics h hc).elim
    · next buf e =>
      split at hc
      · obtain ⟨rfl, rfl⟩ := ends_unique h hc
        exact .inl ⟨_, rfl, hst _ _⟩
      · obtain ⟨rfl, rfl⟩ := ends_unique h hc
        exact .inl ⟨_, rfl, hst _ _⟩
      · next src e1 e2 =>
        split at hc
        · obtain ⟨rfl, rfl⟩ := ends_unique h hc
          exact .inr ⟨raw, buf, src, _, rfl, e, e1, rfl, List.nil_prefix, .inr rfl⟩
        · obtain ⟨rfl, rfl⟩ := ends_unique h hc
          exact .inr ⟨raw, buf, src, _, rfl, e, e1, rfl, List.take_prefix _ _, hst _ _⟩

variable {fuel : Nat} {es1 es2 es3 : List FileEntry}

/-- **C71.** If the command ends with the status 0, it has done one thing that is seen from outside: it has written property_table_raw.go; and if
the system has accepted the whole text, the file declares two tables with which `LookupFirstChar` finds for every character the properties
that the data files list for it. -/
theorem C71_success (h1 : DataFile read rd1 .eof fuel es1 .complete) (h2 : DataFile read rd2 .eof fuel es2 .complete)
    (h3 : DataFile read rd3 .eof fuel es3 .complete) (hf : FormatKeepsTokens m) (effects : List Effect) (h : CommandEnds prog m 0 effects) :
    ∃ src, effects = [.file tableName (src.take (m.write src))] ∧
      ∃ indices props : List UInt8, goTokens src = some (tableFile (indices.map UInt8.toNat) (props.map UInt8.toNat)) ∧
        ∀ c : Char, (c ≠ '\uFFFD' ∨ ∀ x ∈ es1 ++ es2 ++ es3, ∀ n, x.1 ≤ n → n ≤ x.2.1 → n.isValidChar) → ∀ rest,
          LookupFirstCharIn (goIndex indices) (goIndex props) (String.utf8EncodeChar c ++ rest) =
            .ok (listedProps LookupGCBProperty LookupInCBProperty es1 es2 es3 c.val.toNat, (String.utf8EncodeChar c).length) := by
  have hc := C71_command prog hp m hW ho s1 s2 s3 fuel
  have hs := Gen.C44_success h1 h2 h3
  rcases hb : Gen.readTree read fuel rd1 rd2 rd3 with q | (e | raw)
  · have hn : ¬ ∃ raw, Gen.BuildRawPropertyTree read fuel rd1 rd2 rd3 = .ok (.ok raw) := by
      rintro ⟨raw, h⟩; rw [← Gen.readTree_ok] at h; rw [h] at hb; cases hb
    have hpn := fun killed => (C69_success prog hp { m with killed := killed } hW (ho.kill killed) (s1.kill killed) (s2.kill killed) (s3.kill killed)
      h1 h2 h3).2 fun h => hn (hs.mpr h)
    cases is_gentable hp
    exact (ends_not_panics h (panics_of_build hpn)).elim
  · rw [hb] at hc
    cases e with
    | reading file e => exact absurd (ends_unique h hc).1.symm (statusAfter_ne (by decide))
    | os => exact hc.elim
    | format => exact hc.elim
  · rw [hb] at hc
    dsimp only at hc
    split at hc
    · exact (ends_not_panics h hc).elim
    · next buf e =>
      split at hc
      · exact absurd (ends_unique h hc).1.symm (statusAfter_ne (by decide))
      · exact absurd (ends_unique h hc).1.symm (statusAfter_ne (by decide))
      · next src e1 e2 =>
        split at hc
        · exact absurd (ends_unique h hc).1 (by decide)
        refine ⟨src, (ends_unique h hc).2, ?_⟩
        rw [hf buf src e1]
        refine Gen.C53_main h1 h2 h3 buf ?_
        unfold Gen.generateMain
        simp only [bind, Except.bind, Gen.readTree_ok.mp hb, e]

/-- **C71.** From complete data files the command never ends with an error about them: it ends with the status 0 or with an error of the
formatter or of `os.Create`, or it panics; and it panics (and has done nothing before that is seen from outside) if the data has a conflict, concerns more than 1021 blocks of 64 characters outside
ASCII, or the ASCII characters clash. -/
theorem C71_conflict (h1 : DataFile read rd1 .eof fuel es1 .complete) (h2 : DataFile read rd2 .eof fuel es2 .complete)
    (h3 : DataFile read rd3 .eof fuel es3 .complete)
    (h : ¬ (¬ Conflict (fileOps LookupGCBProperty LookupInCBProperty es1 es2 es3) ∧
      AtMostBlocks (fileOps LookupGCBProperty LookupInCBProperty es1 es2 es3) 1021 ∧
      ¬ AsciiClash (fileOps LookupGCBProperty LookupInCBProperty es1 es2 es3))) : CommandPanics prog m := by
  have hpn := fun killed => (C69_success prog hp { m with killed := killed } hW (ho.kill killed) (s1.kill killed) (s2.kill killed) (s3.kill killed)
    h1 h2 h3).2 h
  cases is_gentable hp
  exact panics_of_build hpn

variable {E1 E2 E3 : IOErr} {fe1 fe2 fe3 : FileEnd}

/-- **C71.** If a file has a malformed line, or an overlong line, or cannot be read to its end, and the data does not conflict, then the
command prints the error of the first such file, with the name of that file, and ends with the status 1, and property_table_raw.go is not
touched. -/
theorem C71_bad_file (h1 : DataFile read rd1 E1 fuel es1 fe1) (h2 : DataFile read rd2 E2 fuel es2 fe2)
    (h3 : DataFile read rd3 E3 fuel es3 fe3) (hc : ¬ Conflict (fileOps LookupGCBProperty LookupInCBProperty es1 es2 es3))
    (hbad : ¬ ((fe1 = .complete ∧ E1 = .eof) ∧ (fe2 = .complete ∧ E2 = .eof) ∧ (fe3 = .complete ∧ E3 = .eof))) :
    ∃ file e, FirstBad E1 E2 E3 fe1 fe2 fe3 (.reading file e) ∧
      CommandEnds prog m (statusAfter m (errorMessage m (readingError m file e)) 1) [errorMessage m (readingError m file e)] := by
  obtain ⟨file, e, hf, hb⟩ := C69_bad_file prog hp m hW ho s1 s2 s3 h1 h2 h3 hc hbad
  cases is_gentable hp
  exact ⟨file, e, hf, fails_of_build hb⟩

/-- **C71.** With the data files that are in the repository and a working formatter, if property_table_raw.go can be created, executing the source
text of the command ends with the status 0, and the only effect is that as much of a text as the system accepts has been written to
property_table_raw.go, a text with the tokens of the committed file. (If the system accepts less than the whole text, the status is 0
nevertheless.) -/
theorem C71_committed (hcf : Gen.CommittedFiles read rd1 rd2 rd3 fuel) (hk : NeverKilled m) (hf : FormatKeepsTokens m)
    (hok : ∀ buf, (goTokens buf).isSome → ∃ src, m.format buf = .ok src) (hcr : m.create tableName = .ok ()) :
    ∃ src, CommandEnds prog m 0 [.file tableName (src.take (m.write src))] ∧ (goTokens src).isSome ∧
      goTokens src = goTokens (textFile Text.tableText.flatten) := by
  have hc := C71_command prog hp m hW ho s1 s2 s3 fuel
  obtain ⟨buf, hg, hsm, ht⟩ := Gen.C33_committed_files hcf.1 hcf.2 hcf.3 fuel hcf.4
  obtain ⟨raw, hb, hpr⟩ := Gen.main_ok hg
  obtain ⟨src, hsrc⟩ := hok buf hsm
  simp only [Gen.readTree_ok.mpr hb, hpr, hsrc, hcr, hk _, statusAfter_runs hk] at hc
  rw [if_neg (by decide)] at hc
  refine ⟨src, hc, ?_⟩
  rw [hf buf src hsrc]
  exact ⟨hsm, ht⟩
end

/-- **C71.** The model `Gen.main` of the command (which C65 is about) and the source text agree, on every machine that does what the model's
operating system does: the same status; with the status 0 the only effect is a file property_table_raw.go with the content that the model's
events give it; with the status 1 (there is no other) the only effect is a message, for the error of the model's last event; and a panic for a panic. -/
theorem C71_main {σ : Type} (os : Gen.OS σ) (formatSource : GoString → Except String GoString) (hs : SameOS m os formatSource) (fuel : Nat) :
    match Gen.main os formatSource fuel with
    | (evs, .status 0) => ∃ content, (∀ old, contentAfter Gen.tablePath old evs = some content) ∧ CommandEnds prog m 0 [.file tableName content]
    | (evs, .status _) => ∃ g e, evs.getLast? = some (.message g) ∧ SameError m g e ∧ CommandEnds prog m 1 [errorMessage m e]
    | (_, .panicked p) => p ≠ .outOfFuel → CommandPanics prog m := by
  have he := C71_open prog hp m
  have hk := hs.runs
  simp only [statusAfter_runs hk] at he
  rcases hs.gbp with ⟨n, msg, k1, o1⟩ | ⟨id1, rd1, k1, o1, s1⟩
  · have e : Gen.main os formatSource fuel = ([.message (.os Gen.gbpPath msg)], .status 1) := by
      unfold Gen.main Gen.buildTree; simp only [Gen.gbpPath, o1]; rfl
    rw [e]
    exact ⟨_, _, rfl, .gbp n msg k1, he n (.gbp n k1)⟩
  rcases hs.emoji with ⟨n, msg, k2, o2⟩ | ⟨id2, rd2, k2, o2, s2⟩
  · have e : Gen.main os formatSource fuel = ([.opened Gen.gbpPath, .message (.os Gen.emojiPath msg)], .status 1) := by
      unfold Gen.main Gen.buildTree; simp only [Gen.gbpPath, Gen.emojiPath, o1, o2]; rfl
    rw [e]
    exact ⟨_, _, rfl, .emoji n msg k2, he n (.emoji n id1 k1 k2)⟩
  rcases hs.dcp with ⟨n, msg, k3, o3⟩ | ⟨id3, rd3, k3, o3, s3⟩
  · have e : Gen.main os formatSource fuel = ([.opened Gen.gbpPath, .opened Gen.emojiPath, .message (.os Gen.dcpPath msg)], .status 1) := by
      unfold Gen.main Gen.buildTree; simp only [Gen.gbpPath, Gen.emojiPath, Gen.dcpPath, o1, o2, o3]; rfl
    rw [e]
    exact ⟨_, _, rfl, .dcp n msg k3, he n (.dcp n id1 id2 k1 k2 k3)⟩
  have hc := C71_command prog hp m hW ⟨k1, k2, k3⟩ s1 s2 s3 fuel
  simp only [statusAfter_runs hk, hk _] at hc
  have e : Gen.buildTree os fuel = ([.opened Gen.gbpPath, .opened Gen.emojiPath, .opened Gen.dcpPath], Gen.readTree os.read fuel rd1 rd2 rd3) := by
    unfold Gen.buildTree; simp only [Gen.gbpPath, Gen.emojiPath, Gen.dcpPath, o1, o2, o3]
  unfold Gen.main
  rw [e]
  rcases hr : Gen.readTree os.read fuel rd1 rd2 rd3 with p | (er | raw)
  · rw [hr] at hc
    exact hc
  · rw [hr] at hc
    cases er with
    | reading file e => exact ⟨_, _, rfl, .reading file e, hc⟩
    | os => exact hc.elim
    | format => exact hc.elim
  · rw [hr] at hc
    dsimp only at hc ⊢
    rcases hpr : Gen.printSource raw with p | buf
    · rw [hpr] at hc
      exact fun _ => hc
    · rw [hpr] at hc
      dsimp only [Gen.writeTable] at hc ⊢
      rcases hs.format buf with ⟨t, msg, f1, f2⟩ | ⟨src, f1, f2⟩
      · rw [f1] at hc
        rw [f2]
        exact ⟨_, _, rfl, .format buf t msg f1, hc⟩
      · rcases hs.create with ⟨n, msg, c1, c2⟩ | ⟨c1, c2⟩
        · rw [f1, c1] at hc
          rw [f2, Gen.tablePath, c2]
          exact ⟨_, _, rfl, .create n msg c1, hc⟩
        · rw [f1, c1] at hc
          dsimp only at hc
          rw [if_neg (by decide)] at hc
          rw [f2, Gen.tablePath, c2]
          refine ⟨_, fun old => ?_, hs.write ▸ hc⟩
          show contentAfter "property_table_raw.go" (some []) (List.map (Gen.Event.stored "property_table_raw.go") (List.take (os.write src) src)) = _
          rw [Gen.contentAfter_stored, List.nil_append]
end

/-! ## Cases that meet the hypotheses -/

theorem example_keeps (W : Nat) (grow : Nat → Nat → Nat) (f1 f2 f3 : List UInt8) : FormatKeepsTokens (machineWith (exampleMachine W grow) f1 f2 f3) := by
  intro buf src h
  cases h
  rfl

/-- The hypotheses of C71 are met: by the files of the repository, on a machine whose formatter changes nothing and whose disk accepts
everything. The command ends with the status 0 and has written a file with the tokens of the committed one. -/
example : ∃ src, CommandEnds gentable (machineWith (exampleMachine 64 fun a b => 2 * a + b) (textFile Text.breakProperty.flatten)
      (textFile Text.emojiData.flatten) (textFile Text.derivedCore.flatten)) 0 [.file tableName src] ∧
      goTokens src = goTokens (textFile Text.tableText.flatten) := by
  have hf : Gen.CommittedFiles bytesReader (textFile Text.breakProperty.flatten) (textFile Text.emojiData.flatten) (textFile Text.derivedCore.flatten) _ :=
    ⟨bytesReader_delivers _, bytesReader_delivers _, bytesReader_delivers _, Nat.lt_succ_self _⟩
  generalize textFile Text.breakProperty.flatten = f1 at *
  generalize textFile Text.emojiData.flatten = f2 at *
  generalize textFile Text.derivedCore.flatten = f3 at *
  obtain ⟨src, k1, _, k2⟩ := C71_committed gentable C67_parsed (machineWith (exampleMachine 64 fun a b => 2 * a + b) f1 f2 f3) (by decide : 32 ≤ 64)
    (opens_machineWith _ _ _ _ _) (scans_machineWith _ f1 f2 f3 1) (scans_machineWith _ f1 f2 f3 2) (scans_machineWith _ f1 f2 f3 3) hf
    (fun _ => rfl) (example_keeps _ _ _ _ _) (fun buf _ => ⟨buf, rfl⟩) rfl
  refine ⟨src, ?_, k2⟩
  have e : src.take ((machineWith (exampleMachine 64 fun a b => 2 * a + b) f1 f2 f3).write src) = src := List.take_length
  rw [e] at k1
  exact k1

/-- The hypothesis of `C71_open` is met: without files, the command prints the error for the first one. -/
example : CommandEnds gentable (exampleMachine 64 fun a b => 2 * a + b) 1 [.message []] :=
  C71_open gentable C67_parsed _ 0 (.gbp _ rfl)

/-- The operating system of the model with three files. -/
def threeFiles (f1 f2 f3 : List UInt8) : Gen.OS (List UInt8) :=
  Gen.filesOS fun p => .ok (if p = "ucd/auxiliary/GraphemeBreakProperty.txt" then f1 else if p = "ucd/emoji/emoji-data.txt" then f2 else f3)

/-- The hypotheses of `C71_main` are met, with any three files. -/
theorem sameOS_machineWith (W : Nat) (grow : Nat → Nat → Nat) (f1 f2 f3 : List UInt8) :
    SameOS (machineWith (exampleMachine W grow) f1 f2 f3) (threeFiles f1 f2 f3) .ok where
  gbp := .inr ⟨1, f1, rfl, rfl, scans_machineWith _ f1 f2 f3 1⟩
  emoji := .inr ⟨2, f2, rfl, rfl, scans_machineWith _ f1 f2 f3 2⟩
  dcp := .inr ⟨3, f3, rfl, rfl, scans_machineWith _ f1 f2 f3 3⟩
  create := .inr ⟨rfl, rfl⟩
  write := rfl
  runs := fun _ => rfl
  format := fun buf => .inr ⟨buf, rfl, rfl⟩

theorem fails_of_main {W : Nat} {grow : Nat → Nat → Nat} {f1 f2 f3 : List UInt8} (hW : 32 ≤ W) {fuel : Nat} {evs : List Gen.Event} {file : String}
    {er : ParseErr} (e : Gen.main (threeFiles f1 f2 f3) .ok fuel = (evs ++ [.message (.reading file er)], .status 1)) :
    CommandEnds gentable (machineWith (exampleMachine W grow) f1 f2 f3) 1
      [errorMessage (machineWith (exampleMachine W grow) f1 f2 f3) (readingError (machineWith (exampleMachine W grow) f1 f2 f3) file er)] := by
  have h := C71_main gentable C67_parsed (machineWith (exampleMachine W grow) f1 f2 f3) hW _ _ (sameOS_machineWith W grow f1 f2 f3) fuel
  rw [e] at h
  obtain ⟨g, e, h1, h2, h3⟩ := h
  rw [List.getLast?_concat] at h1
  cases h1
  cases h2
  exact h3

theorem panics_of_main {W : Nat} {grow : Nat → Nat → Nat} {f1 f2 f3 : List UInt8} (hW : 32 ≤ W) {fuel : Nat}
    (e : (match Gen.main (threeFiles f1 f2 f3) .ok fuel with
      | (_, .panicked p) => decide (p ≠ .outOfFuel)
      | _ => false) = true) :
    CommandPanics gentable (machineWith (exampleMachine W grow) f1 f2 f3) := by
  have h := C71_main gentable C67_parsed (machineWith (exampleMachine W grow) f1 f2 f3) hW _ _ (sameOS_machineWith W grow f1 f2 f3) fuel
  rcases hr : Gen.main (threeFiles f1 f2 f3) .ok fuel with ⟨evs, _ | p⟩
  · rw [hr] at e; cases e
  · rw [hr] at e h; exact h (of_decide_eq_true e)

/-- A malformed line in the first file: a message about it, the status 1, and nothing else. -/
example : CommandEnds gentable (machineWith (exampleMachine 64 fun a b => 2 * a + b) (str "zz ; x") [] []) 1
    [errorMessage (machineWith (exampleMachine 64 fun a b => 2 * a + b) (str "zz ; x") [] [])
      (readingError (machineWith (exampleMachine 64 fun a b => 2 * a + b) (str "zz ; x") [] []) "GraphemeBreakProperty.txt" (.invalidStart (str "zz")))] :=
  fails_of_main (evs := [.opened Gen.gbpPath, .opened Gen.emojiPath, .opened Gen.dcpPath]) (fuel := 9) (by decide) (by decide +kernel)

theorem killed_of_tree {W : Nat} {grow : Nat → Nat → Nat} {f1 f2 f3 : List UInt8} (hW : 32 ≤ W) {fuel : Nat}
    (e : (match Gen.readTree bytesReader fuel f1 f2 f3 with
      | .ok (.ok raw) => (Gen.printSource raw).isOk
      | _ => false) = true) :
    CommandEnds gentable { machineWith (exampleMachine W grow) f1 f2 f3 with killed := fun _ => true } 137 [.file tableName []] := by
  have h := C71_command (rd1 := f1) (rd2 := f2) (rd3 := f3) gentable C67_parsed { machineWith (exampleMachine W grow) f1 f2 f3 with killed := fun _ => true } hW
    ((opens_machineWith (exampleMachine W grow) f1 f2 f3 (str "ucd")).kill _) ((scans_machineWith _ f1 f2 f3 1).kill _)
    ((scans_machineWith _ f1 f2 f3 2).kill _) ((scans_machineWith _ f1 f2 f3 3).kill _) fuel
  rcases hr : Gen.readTree bytesReader fuel f1 f2 f3 with q | (er | raw)
  · rw [hr] at e; cases e
  · rw [hr] at e; cases e
  · rw [hr] at h
    rw [hr] at e
    dsimp only at e h
    rcases hp : Gen.printSource raw with p | buf
    · rw [hp] at e; cases e
    · rw [hp] at h; exact h

/-- A process that is killed after its first effect: property_table_raw.go is empty. -/
example : CommandEnds gentable { machineWith (exampleMachine 64 fun a b => 2 * a + b) (str "0300 ; Extend\n") [] [] with killed := fun _ => true } 137
    [.file tableName []] :=
  killed_of_tree (fuel := 40) (by decide) (by decide +kernel)

/-- Contradictory entries for a character: a panic. -/
example : CommandPanics gentable (machineWith (exampleMachine 64 fun a b => 2 * a + b) (str "0300 ; Extend\n") (str "0300 ; Extended_Pictographic\n") []) :=
  panics_of_main (fuel := 40) (by decide) (by decide +kernel)

end Textseg.Props
