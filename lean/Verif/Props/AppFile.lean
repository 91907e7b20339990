import Verif.Lemmas.AppFile
import Verif.Props.Signature
import Verif.Props.Program

/-
C68: applications, from the source to the signed file.
-/

namespace Spasm.Props
open Spasm Spec

theorem fieldBytes_bytes {fields : AppFields} : (∀ b ∈ fieldBytes fields, b < 256) ↔ ∀ f ∈ fields, f.1 < 256 ∧ ∀ b ∈ f.2, b < 256 := by
  induction fields with
  | nil => simp [fieldBytes]
  | cons f fs ih =>
    simp only [fieldBytes, List.cons_append, List.mem_cons, List.mem_append]
    constructor
    · intro h
      have h2 := ih.1 fun b hb => h b (.inr (.inr (.inr hb)))
      rintro g (rfl | hg)
      · exact ⟨h _ (.inr (.inl rfl)), fun b hb => h b (.inr (.inr (.inl hb)))⟩
      · exact h2 g hg
    · intro h
      have h2 := ih.2 fun g hg => h g (.inr hg)
      rintro b (rfl | rfl | hb | hb)
      · decide
      · exact (h f (.inl rfl)).1
      · exact (h f (.inl rfl)).2 b hb
      · exact h2 b hb

theorem signed_sigBlock (md5 : List Nat → List Nat) (app : List Nat) (hmd : (md5 app).length = 16 ∧ ∀ b ∈ md5 app, b < 256) :
    SignedApp md5 app (app ++ sigBlock (siggen (md5 app)).1 (siggen (md5 app)).2) := by
  have hsl := length_siggen (md5 app)
  have hsf := siggen_f (md5 app)
  have hv := C38_siggen _ hmd.1 hmd.2
  have hsby : ∀ x ∈ (siggen (md5 app)).1, x < 256 := by unfold siggen; exact bytes_leBytes _ _
  refine ⟨_, _, 96 - ([0x02, 0x2d, (siggen (md5 app)).1.length % 256] ++ (siggen (md5 app)).1 ++
    (if (siggen (md5 app)).2 ≠ 0 then [1, (siggen (md5 app)).2 % 256] else [0])).length, ?_, ?_, hsby, hv⟩
  · rw [List.append_assoc]
    unfold sigBlock signatureField
    dsimp only
    generalize (siggen (md5 app)).1 = sg at *
    generalize (siggen (md5 app)).2 = f at *
    rw [Nat.mod_eq_of_lt (show sg.length < 256 by omega), Nat.mod_eq_of_lt (show f < 256 by omega)]
    by_cases h0 : f = 0
    · simp only [h0, ne_eq, not_true, if_false, if_true]
    · simp only [h0, ne_eq, not_false_eq_true, if_false, if_true]
  · rw [List.length_append, length_sigBlock _ _ (by omega)]

/-- What the exporter makes of a good application. -/
theorem makeApp_good (md5 : List Nat → List Nat) (hmd : ∀ l, (md5 l).length = 16 ∧ ∀ b ∈ md5 l, b < 256) (before after : AppFields)
    (name len code : List Nat) (x : Nat) (hh : GoodHeader before after name) (hlen : len.length = 4) (bytes : List Nat)
    (eb : bytes = application len (before ++ (0x81, [x]) :: after) code) (hf : FitsPages bytes.length) (hb : ∀ b ∈ bytes, b < 256) :
    ∃ text whole, readHex text = some (placed whole) ∧
      SignedApp md5 (application (highFirst4 (bytes.length - 6)) (before ++ (0x81, [pagesOf (bytes.length + 96)]) :: after) code) whole ∧
      ∀ s, makeApp md5 bytes s = .ok (appFile name text) s := by
  have hp := patchApp_good before after name len code x hh hlen bytes eb hf
  have hf1 := hf.1
  have e1 : application (highFirst4 (bytes.length - 6)) (before ++ (0x81, [pagesOf (bytes.length + 96)]) :: after) (code ++ List.replicate 256 0) =
      application (highFirst4 (bytes.length - 6)) (before ++ (0x81, [pagesOf (bytes.length + 96)]) :: after) code ++ List.replicate 256 0 := by
    unfold application
    rw [List.append_assoc _ code]
  have el : (application (highFirst4 (bytes.length - 6)) (before ++ (0x81, [pagesOf (bytes.length + 96)]) :: after) code).length = bytes.length := by
    rw [length_application, length_pageField before after _ x]
    conv => rhs; rw [eb, length_application, hlen]
    rfl
  have hall : ∀ b ∈ application (highFirst4 (bytes.length - 6)) (before ++ (0x81, [pagesOf (bytes.length + 96)]) :: after) code, b < 256 := by
    replace hb : ∀ b ∈ application len (before ++ (0x81, [x]) :: after) code, b < 256 := eb ▸ hb
    unfold application at hb ⊢
    simp only [List.mem_append] at hb ⊢
    have hfb := fieldBytes_bytes.1 fun b h => hb b (.inl (.inr h))
    have hfb' : ∀ b ∈ fieldBytes (before ++ (0x81, [pagesOf (bytes.length + 96)]) :: after), b < 256 := by
      refine fieldBytes_bytes.2 fun f hf => ?_
      rcases List.mem_append.1 hf with h | h
      · exact hfb f (List.mem_append_left _ h)
      · rcases List.mem_cons.1 h with rfl | h
        · refine ⟨by simp, fun b hb => ?_⟩
          simp only [List.mem_cons, List.not_mem_nil, or_false] at hb
          subst hb
          unfold pagesOf
          omega
        · exact hfb f (List.mem_append_right _ (List.mem_cons_of_mem _ h))
    rintro b (((h | h) | h) | h)
    · exact hb b (.inl (.inl (.inl h)))
    · exact bytes_be32 _ b h
    · exact hfb' b h
    · exact hb b (.inr h)
  rw [e1] at hp
  generalize happ : application (highFirst4 (bytes.length - 6)) (before ++ (0x81, [pagesOf (bytes.length + 96)]) :: after) code = app at *
  have hsl := length_siggen (md5 app)
  have hsb : ∀ x ∈ sigBlock (siggen (md5 app)).1 (siggen (md5 app)).2, x < 256 := bytes_sigBlock _ _ (by unfold siggen; exact bytes_leBytes _ _)
  have hal : (app ++ sigBlock (siggen (md5 app)).1 (siggen (md5 app)).2).length = bytes.length + 96 := by
    rw [List.length_append, length_sigBlock _ _ (by omega), el]
  refine ⟨intelHex (app ++ sigBlock (siggen (md5 app)).1 (siggen (md5 app)).2), app ++ sigBlock (siggen (md5 app)).1 (siggen (md5 app)).2, ?_,
    signed_sigBlock md5 app (hmd app), fun s => ?_⟩
  · rw [readHex_intelHex, if_pos (by rw [hal]; omega)]
    intro b hb
    rcases List.mem_append.1 hb with h | h
    · exact hall b h
    · exact hsb b h
  · unfold makeApp
    rw [M.bind_ok (hp s)]
    dsimp only
    rw [List.take_left' el]
    generalize hsg : siggen (md5 app) = sg at *
    obtain ⟨sig, f⟩ := sg
    dsimp only at *
    rw [if_neg (by omega), hal]
    refine congrArg (fun x => Res.ok x s) (header_appFile _ _ _ ?_)
    rw [length_intelHex _ (by rw [hal]; omega), hal]
    unfold appHexLength recChars
    omega

/-- C68, the exporter: an application with a good header is never refused. The file holds it with the two fields that the exporter
fills in, the length and the number of pages, and with a signature that verifies. -/
theorem C68_file (md5 : List Nat → List Nat) (hmd : ∀ l, (md5 l).length = 16 ∧ ∀ b ∈ md5 l, b < 256) (before after : AppFields)
    (name len code : List Nat) (x : Nat) (hh : GoodHeader before after name) (hlen : len.length = 4) (out : Str) (hn : HasExt out (b! "8XK"))
    (s : S) (hg : GoodOutput s) (eb : image s = application len (before ++ (0x81, [x]) :: after) code) (hf : FitsPages (image s).length) :
    ∃ text whole, readHex text = some (placed whole) ∧
      SignedApp md5 (application (highFirst4 ((image s).length - 6)) (before ++ (0x81, [pagesOf ((image s).length + 96)]) :: after) code) whole ∧
      Writes (writeFile md5 out s) out (appFile name text) := by
  obtain ⟨text, whole, h1, h2, h3⟩ := makeApp_good md5 hmd before after name len code x hh hlen _ eb hf (bytes_image s hg)
  refine ⟨text, whole, h1, h2, ?_⟩
  obtain ⟨file, hw, h⟩ := writes_of_quiet md5 out .t8XK s (fun file => file = appFile name text) (calcOf_ext out (b! "8XK", .t8XK) (by decide) hn) hg
    (quiet_of_ok h3 rfl)
  exact h ▸ hw

/-- C68, from the command line and the text of the program: the run shows nothing, ends with status 0 and writes exactly one
file, the signed application.
Missing: what is missing in `C54_assembles_partial`. -/
theorem C68_whole_partial (md5 : List Nat → List Nat) (hmd : ∀ l, (md5 l).length = 16 ∧ ∀ b ∈ md5 l, b < 256) (fs : Str → Option (List Nat))
    (mem rand : Nat → Nat) (cwd : Str)
    (args : List Str) (is : List Item) (h : Asks args is none) (hp : Plain is) (input : Str) (hin : inputFor is = some input) (text : Str)
    (hs : Source fs is input text) (dirs : List Str) (hdirs : Searched cwd is input dirs) (label : Str → Option Int) (defined params : List Str) (depth : Nat)
    (hd : depth ≤ 20) (bs : List Nat) (ha : Assembles (settingFor is fs dirs label defined params depth) text bs) (hbs : ∀ b ∈ bs, b < 256)
    (before after : AppFields) (name len code : List Nat) (x : Nat) (hh : GoodHeader before after name) (hlen : len.length = 4)
    (hn : HasExt (outputFor is input) (b! "8XK")) (eb : bs = application len (before ++ (0x81, [x]) :: after) code) (hf : FitsPages bs.length) :
    ∃ hex whole, readHex hex = some (placed whole) ∧
      SignedApp md5 (application (highFirst4 (bs.length - 6)) (before ++ (0x81, [pagesOf (bs.length + 96)]) :: after) code) whole ∧
      ∃ K, ∀ fuel, K ≤ fuel → ∃ s, spasm fuel md5 fs mem rand cwd args = .ok 0 s ∧ s.log = [.wrote (outputFor is input) (appFile name hex)] := by
  obtain ⟨hex, whole, h1, h2, h3⟩ := makeApp_good md5 hmd before after name len code x hh hlen bs eb hf hbs
  have hsmall : bs.length ≤ 8000000 := by have := hf.1; omega
  obtain ⟨K, hK⟩ := run_assembled md5 fs mem rand cwd args is h hp input hin text hs dirs hdirs label defined params depth hd bs ha hsmall
  refine ⟨hex, whole, h1, h2, K, fun fuel hfl => ?_⟩
  obtain ⟨s, n, a, eq⟩ := hK fuel hfl
  rw [eq]
  exact writes_quiet a md5 _ .t8XK (calcOf_ext _ (b! "8XK", .t8XK) (by decide) hn) hsmall _ (h3 _)

/-- Writing a file when the exporter records one error or warning: it is shown behind the file and the status is 3. -/
theorem writes_noisy {ez st : Bool} {n : Nat} {bs : List Nat} {mem : Nat → Nat} {s : S} (h : Assembled ez st n bs mem s) (md5 : List Nat → List Nat) (name : Str) (ct : Calc)
    (hc : calcOf name = (ct, false)) (hlen : bs.length ≤ 8000000) (file : List Nat) (code : Nat) (warn : Bool) (hcode : isFatal code = true)
    (hf : ∀ x, fileOf md5 ct name s.mem bs x = .ok file (recorded code warn x)) :
    ∃ s', (outputFile md5 name >>= fun _ => printStats >>= fun _ => M.get >>= fun s => pure s.exitCode) s = .stop (.exit 3) s' ∧
      s'.log = [.wrote name file, .printed code warn] := by
  have e1 : writeFile md5 name { s with session := 1 } =
      .ok () { recorded code warn (exporting { s with session := 1 }) with log := [.wrote name file] } := by
    rw [writeFile_eq md5 name ct _ hc (by show 0 ≤ s.outPtr; rw [h.out]; omega) (by show s.outPtr ≤ _; rw [h.out]; omega),
      show image { s with session := 1 } = bs from h.image, M.bind_ok (hf _)]
    show Res.ok () { recorded code warn (exporting { s with session := 1 }) with log := s.log ++ [.wrote name file] } = _
    rw [h.log]
    rfl
  have e2 : outputFile md5 name s = (writeFile md5 name >>= fun _ => replayFatal 1 >>= fun _ => endSession 1) { s with session := 1 } := by
    show (writeFile md5 name >>= fun _ => replayFatal (s.session + 1) >>= fun _ => endSession (s.session + 1)) { s with session := s.session + 1 } = _
    rw [h.session]
    rfl
  have herr : ∃ l f, ({ recorded code warn (exporting { s with session := 1 }) with log := [.wrote name file] } : S).errors = [⟨code, 1, warn, l, f⟩] := by
    refine ⟨-1, b! "exporter", ?_⟩
    show ⟨code, 1, warn, -1, b! "exporter"⟩ :: s.errors = _
    rw [h.errors]
  have hcc : ({ recorded code warn (exporting { s with session := 1 }) with log := [.wrote name file] } : S).mode.codeCounter = false := h.counting
  have hlog : ({ recorded code warn (exporting { s with session := 1 }) with log := [.wrote name file] } : S).log = [.wrote name file] := rfl
  generalize ({ recorded code warn (exporting { s with session := 1 }) with log := [.wrote name file] } : S) = x at e1 herr hcc hlog
  obtain ⟨l, f, herr⟩ := herr
  have e3 : replayFatal 1 x = .ok () { x with log := [.wrote name file, .printed code warn] } := by
    show Res.ok () { x with log := x.log ++ printedErrors true x } = _
    have : printedErrors true x = [.printed code warn] := by
      unfold printedErrors
      rw [herr, hcc]
      simp [hcode]
    rw [this, hlog]
    rfl
  have e4 : ∀ y : S, y.errors = [⟨code, 1, warn, l, f⟩] → endSession 1 y = .stop (.exit 3) { y with errors := [], session := y.session - 1 } := by
    intro y hy
    unfold endSession sessPrefix
    rw [hy]
    simp [hcode]
  refine ⟨{ x with errors := [], session := x.session - 1, log := [.wrote name file, .printed code warn] }, ?_, rfl⟩
  have : outputFile md5 name s = .stop (.exit 3) { x with errors := [], session := x.session - 1, log := [.wrote name file, .printed code warn] } := by
    rw [e2, M.bind_ok e1, M.bind_ok e3]
    exact e4 { x with log := [.wrote name file, .printed code warn] } herr
  rw [M.bind_stop this]

/-- C68, refusals: an application that lacks something is never signed. The run shows the error that says what is missing and ends with
status 3, and the file is empty.
Missing: what is missing in `C54_assembles_partial`. -/
theorem C68_refused_partial (md5 : List Nat → List Nat) (fs : Str → Option (List Nat)) (mem rand : Nat → Nat) (cwd : Str)
    (args : List Str) (is : List Item) (h : Asks args is none) (hp : Plain is) (input : Str) (hin : inputFor is = some input) (text : Str)
    (hs : Source fs is input text) (dirs : List Str) (hdirs : Searched cwd is input dirs) (label : Str → Option Int) (defined params : List Str) (depth : Nat)
    (hd : depth ≤ 20) (bs : List Nat) (ha : Assembles (settingFor is fs dirs label defined params depth) text bs) (hlen : bs.length ≤ 8000000)
    (hn : HasExt (outputFor is input) (b! "8XK")) (code : Nat) (hl : Lacking bs code) :
    ∃ K, ∀ fuel, K ≤ fuel → ∃ s, spasm fuel md5 fs mem rand cwd args = .stop (.exit 3) s ∧
      s.log = [.wrote (outputFor is input) [], .printed code false] := by
  obtain ⟨K, hK⟩ := run_assembled md5 fs mem rand cwd args is h hp input hin text hs dirs hdirs label defined params depth hd bs ha hlen
  refine ⟨K, fun fuel hfl => ?_⟩
  obtain ⟨s, n, a, eq⟩ := hK fuel hfl
  have hcode : isFatal code = true := by cases hl <;> decide
  obtain ⟨s', e, l⟩ := writes_noisy a md5 _ .t8XK (calcOf_ext _ (b! "8XK", .t8XK) (by decide) hn) hlen [] code false hcode (fun x => by
    show makeApp md5 bs x = _
    unfold makeApp
    rw [M.bind_ok (patchApp_lacking hl x)]
    rfl)
  exact ⟨s', by rw [eq, e], l⟩

/-- C54, for ROM images: the bytes of the program, filled up with FFh to 524288 bytes. -/
theorem C54_rom_partial (md5 : List Nat → List Nat) (fs : Str → Option (List Nat)) (mem rand : Nat → Nat) (cwd : Str)
    (args : List Str) (is : List Item) (h : Asks args is none) (hp : Plain is) (input : Str) (hin : inputFor is = some input) (text : Str)
    (hs : Source fs is input text) (dirs : List Str) (hdirs : Searched cwd is input dirs) (label : Str → Option Int) (defined params : List Str) (depth : Nat)
    (hd : depth ≤ 20) (bs : List Nat) (ha : Assembles (settingFor is fs dirs label defined params depth) text bs)
    (hlen : bs.length ≤ 524288) (hn : HasExt (outputFor is input) (b! "ROM")) :
    ∃ K, ∀ fuel, K ≤ fuel → ∃ s, spasm fuel md5 fs mem rand cwd args = .ok 0 s ∧
      s.log = [.wrote (outputFor is input) (bs ++ List.replicate (524288 - bs.length) 0xFF)] := by
  obtain ⟨K, hK⟩ := run_assembled md5 fs mem rand cwd args is h hp input hin text hs dirs hdirs label defined params depth hd bs ha (by omega)
  refine ⟨K, fun fuel hf => ?_⟩
  obtain ⟨s, n, a, e⟩ := hK fuel hf
  rw [e]
  exact writes_pure a md5 _ .rom (calcOf_ext _ (b! "ROM", .rom) (by decide) hn) (by omega) (makeRom bs) fun _ => rfl

theorem app_words (fs : Str → Option (List Nat)) (dirs : List Str) (is : List Item) (out : Str) (his : is = [.file (b! "a.asm"), .file out]) :
    Assembles (settingFor is fs dirs (fun _ => none) [] [] 1) (b! " .dw $0F80,0,0,$1280,$0401,$8180,$8001,$4741\n")
      [128, 15, 0, 0, 0, 0, 128, 18, 1, 4, 128, 129, 1, 128, 65, 71] := by
  subst his
  refine ⟨[], 16, [], .whole _ _ _ _ _ _ _ _ ?_, rfl, .nil, (by intro p hp; cases hp), (by intro p hp; cases hp), by intro p hp; cases hp⟩
  show Block _ [] [] _ _ _ _ _ _
  have nb : Blanks [32] := by intro c hc; simp at hc; subst hc; simp
  have nn : Blanks [] := by intro c hc; simp at hc
  have token : ∀ pc labels texts (ds : Str), ds.length = 4 → (∀ c ∈ ds, 48 ≤ c ∧ c < 58 ∨ 65 ≤ c ∧ c < 71) → 
      Denotes pc labels texts 0 (36 :: ds) (asInt32 (value 16 ds)) := by
    intro pc labels texts ds hl hc
    have hd : ∀ c ∈ ds, IsDigit 16 c := by
      intro c h
      rcases hc c h with h | h
      · exact ⟨c - 48, by unfold digit; rw [if_pos (by omega)], by omega⟩
      · exact ⟨c - 65 + 10, by unfold digit; rw [if_neg (by omega), if_pos (by omega)], by omega⟩
    have ha : ∀ c ∈ ds, Alnum c := by
      intro c h
      have := hc c h
      unfold Alnum
      omega
    obtain ⟨a, b, c, d, rfl⟩ : ∃ a b c d, ds = [a, b, c, d] := by
      match ds, hl with
      | [a, b, c, d], _ => exact ⟨a, b, c, d, rfl⟩
    have hv : value 16 [a, b, c, d] ≤ 4294967295 := by
      obtain ⟨x, hx, hx'⟩ := hd a (by simp)
      obtain ⟨y, hy, hy'⟩ := hd b (by simp)
      obtain ⟨z, hz, hz'⟩ := hd c (by simp)
      obtain ⟨w, hw, hw'⟩ := hd d (by simp)
      simp only [value, hx, hy, hz, hw, Option.getD_some, List.length_cons, List.length_nil, Nat.reduceAdd, Nat.reducePow]
      omega
    exact .one 0 _ _ (.plain 0 _ _ (.atom _ _ (.literal 16 [a, b, c, d] _ ⟨by simp, ha, .inl ⟨rfl, rfl, hd a (by simp)⟩⟩ hd hv)))
  have zero : ∀ pc labels texts, Denotes pc labels texts 0 (b! "0") 0 := by
    intro pc labels texts
    exact .one 0 _ _ (.plain 0 _ _ (.atom _ _ (atom_digit pc labels 48 (by decide) (by decide))))
  have bal : ∀ t : Str, (∀ c ∈ t, Ordinary c ∧ c ≠ 44) → Balanced [44] false t := by
    intro t
    induction t with
    | nil => intro _; exact .nil _
    | cons c t ih =>
      intro h
      exact .char _ _ _ (h c (by simp)).1 (by simpa using (h c (by simp)).2) (ih fun x hx => h x (by simp [hx]))
  exact .stmts [] [] 0 (b! " .dw $0F80,0,0,$1280,$0401,$8180,$8001,$4741") [] [10] [] _ 16 [] [] [] 16 [] (.one _ _ _ _ _ _ (.plain _ _ _
    (.data [32] (b! ".dw") 2 32 _ (b! "$0F80,0,0,$1280,$0401,$8180,$8001,$4741") _ nb (by decide) (.inl rfl)
      (.more [] (b! "$0F80") [] _ _ nn nn (⟨bal _ (by decide), by decide, by decide, by decide⟩) (by decide)
      (.more [] (b! "0") [] _ _ nn nn (⟨bal _ (by decide), by decide, by decide, by decide⟩) (by decide)
      (.more [] (b! "0") [] _ _ nn nn (⟨bal _ (by decide), by decide, by decide, by decide⟩) (by decide)
      (.more [] (b! "$1280") [] _ _ nn nn (⟨bal _ (by decide), by decide, by decide, by decide⟩) (by decide)
      (.more [] (b! "$0401") [] _ _ nn nn (⟨bal _ (by decide), by decide, by decide, by decide⟩) (by decide)
      (.more [] (b! "$8180") [] _ _ nn nn (⟨bal _ (by decide), by decide, by decide, by decide⟩) (by decide)
      (.more [] (b! "$8001") [] _ _ nn nn (⟨bal _ (by decide), by decide, by decide, by decide⟩) (by decide)
      (.one [] (b! "$4741") [] nn nn (⟨bal _ (by decide), by decide, by decide, by decide⟩) (by decide)))))))))
      (.now 0 _ 3968 _ _ (.plain 0 (token _ _ _ (b! "0F80") rfl (by decide)) Nat.zero_lt_one) (by rfl)
      (.now 2 _ 0 _ _ (.plain 0 (zero _ _ _) Nat.zero_lt_one) (by rfl)
      (.now 4 _ 0 _ _ (.plain 0 (zero _ _ _) Nat.zero_lt_one) (by rfl)
      (.now 6 _ 4736 _ _ (.plain 0 (token _ _ _ (b! "1280") rfl (by decide)) Nat.zero_lt_one) (by rfl)
      (.now 8 _ 1025 _ _ (.plain 0 (token _ _ _ (b! "0401") rfl (by decide)) Nat.zero_lt_one) (by rfl)
      (.now 10 _ 33152 _ _ (.plain 0 (token _ _ _ (b! "8180") rfl (by decide)) Nat.zero_lt_one) (by rfl)
      (.now 12 _ 32769 _ _ (.plain 0 (token _ _ _ (b! "8001") rfl (by decide)) Nat.zero_lt_one) (by rfl)
      (.now 14 _ 18241 _ _ (.plain 0 (token _ _ _ (b! "4741") rfl (by decide)) Nat.zero_lt_one) (by rfl)
      (.nil _))))))))))) (by decide))
    (.inl rfl) (.inl rfl) (.nil _ _ _)

/-- `spasm a.asm b.8xk` for a header with the fields 80 12, 80 81 and the name G: the program is accepted, its length field becomes
10 and its page count 1. -/
example (md5 : List Nat → List Nat) (hmd : ∀ l, (md5 l).length = 16 ∧ ∀ b ∈ md5 l, b < 256) (fs : Str → Option (List Nat)) (mem rand : Nat → Nat) (cwd : Str)
    (h : fs (b! "a.asm") = some (b! " .dw $0F80,0,0,$1280,$0401,$8180,$8001,$4741\n")) :
    ∃ hex whole, readHex hex = some (placed whole) ∧
      SignedApp md5 [0x80, 0x0F, 0, 0, 0, 10, 0x80, 0x12, 1, 4, 0x80, 0x81, 1, 0x80, 0x41, 71] whole ∧
      ∃ K, ∀ fuel, K ≤ fuel → ∃ s, spasm fuel md5 fs mem rand cwd [b! "a.asm", b! "b.8xk"] = .ok 0 s ∧ s.log = [.wrote (b! "b.8xk") (appFile [71] hex)] :=
  C68_whole_partial md5 hmd fs mem rand cwd [b! "a.asm", b! "b.8xk"] [.file (b! "a.asm"), .file (b! "b.8xk")]
    (.file _ _ _ _ (by decide) (.file _ _ _ _ (by decide) .nil))
    (by intro c hc; simp at hc) (b! "a.asm") rfl _ (.inr ⟨rfl, _, h, by decide, .inl ⟨rfl, by decide, by decide⟩⟩) [cwd]
    (.current [] (by rw [← isAbsPath_iff _ (by decide)]; decide) (by decide) (.other _ _ _ (by intro t h; cases h) (.other _ _ _ (by intro t h; cases h) .nil)))
    (fun _ => none) [] [] 1 (by decide) _ (app_words fs _ _ _ rfl) (by decide) [(0x12, [1, 4])] [(0x41, [71])] [71] [0, 0, 0, 0] [] 1
    ⟨by decide, by decide, by decide, 0x41, [71], by decide, rfl⟩ rfl (hasExt_dot (b! "b") (b! "8xk") _ (by decide) (by decide) (by decide)) rfl
    (by unfold FitsPages; decide)

/-- `spasm a.asm b.rom` of the same text. -/
example (md5 : List Nat → List Nat) (fs : Str → Option (List Nat)) (mem rand : Nat → Nat) (cwd : Str)
    (h : fs (b! "a.asm") = some (b! " .dw $0F80,0,0,$1280,$0401,$8180,$8001,$4741\n")) :
    ∃ K, ∀ fuel, K ≤ fuel → ∃ s, spasm fuel md5 fs mem rand cwd [b! "a.asm", b! "b.rom"] = .ok 0 s ∧
      s.log = [.wrote (b! "b.rom") ([128, 15, 0, 0, 0, 0, 128, 18, 1, 4, 128, 129, 1, 128, 65, 71] ++ List.replicate 524272 0xFF)] :=
  C54_rom_partial md5 fs mem rand cwd [b! "a.asm", b! "b.rom"] [.file (b! "a.asm"), .file (b! "b.rom")]
    (.file _ _ _ _ (by decide) (.file _ _ _ _ (by decide) .nil))
    (by intro c hc; simp at hc) (b! "a.asm") rfl _ (.inr ⟨rfl, _, h, by decide, .inl ⟨rfl, by decide, by decide⟩⟩) [cwd]
    (.current [] (by rw [← isAbsPath_iff _ (by decide)]; decide) (by decide) (.other _ _ _ (by intro t h; cases h) (.other _ _ _ (by intro t h; cases h) .nil)))
    (fun _ => none) [] [] 1 (by decide) _ (app_words fs _ _ _ rfl) (by decide) (hasExt_dot (b! "b") (b! "rom") _ (by decide) (by decide) (by decide))

/-- Applications that lack something: no length field, a wrong key, no page count, no name. -/
example : Lacking [0xC9] 0x501 ∧ Lacking [0x80, 0x0F, 0, 0, 0, 0, 0x80, 0x12, 1, 5, 0x80, 0x81, 1] 0x502 ∧
    Lacking [0x80, 0x0F, 0, 0, 0, 0, 0x80, 0x12, 1, 4] 0x503 ∧ Lacking [0x80, 0x0F, 0, 0, 0, 0, 0x80, 0x12, 1, 4, 0x80, 0x81, 1, 0xC9] 0x504 :=
  ⟨.length _ (by unfold FitsPages; decide) (by decide),
    .kind [0, 0, 0, 0] [(0x12, [1, 5]), (0x81, [1])] [] (by unfold FitsPages; decide) rfl (by decide) (by decide) (by decide),
    .pages [0, 0, 0, 0] [(0x12, [1, 4])] [] (by unfold FitsPages; decide) rfl (by decide) (by decide) (by decide) (by decide),
    .name [0, 0, 0, 0] [(0x12, [1, 4]), (0x81, [1])] [0xC9] (by unfold FitsPages; decide) rfl (by decide) (by decide) (by decide)
      ⟨_, List.mem_cons_of_mem _ List.mem_cons_self, rfl⟩ (by decide)⟩

end Spasm.Props
