import Verif.Model.Shared
import Verif.Props.SaveLoad
/-!
# C88: several processes that save the same file at the same time

`Model/Shared.lean` says what the operating system makes of the steps of several `to_file` on the same path.
-/
namespace Kiutils

/-! ## Specification -/

/-- The steps `l` are those of the processes `ps`, in any order that keeps the order of each process. -/
def Interleaves (ps : List (List FileOp)) (l : List (Nat × FileOp)) : Prop :=
  ∀ i, (l.filter fun x => decide (x.1 = i)).map Prod.snd = ps.getD i []

/-- The process that did the last step. -/
def lastProcess (l : List (Nat × FileOp)) : Option Nat := l.getLast?.map Prod.fst

/-- More bytes behind those of a text do not change how the text itself is decoded. -/
def PrefixSafe (c : Codec) : Prop := ∀ s b r x, c.encode s = some b → c.decode (b ++ r) = some x → ∃ y, x = s ++ y

/-- The file at `p` has this content; it does not matter what else is there. -/
def HasContent (fs : FS) (p : Path) (b : Bytes) : Prop := fs.node p = some (.file b)

/-! ## Encodings -/

theorem prefixSafe_latin1 : PrefixSafe .latin1 := by
  intro s b r x h1 h2
  simp only [Codec.latin1] at h1 h2
  split at h1
  · cases h1
    cases h2
    refine ⟨r.map fun x => Char.ofNat x.toNat, ?_⟩
    rename_i h
    rw [List.map_append]
    congr 1
    have := Codec.latin1_lawful s (s.map fun c => UInt8.ofNat c.toNat) (by simp only [Codec.latin1]; rw [if_pos h])
    exact Option.some.inj this
  · cases h1

theorem utf8_char_inj {c d : Char} {x y : List UInt8} (h : String.utf8EncodeChar c ++ x = String.utf8EncodeChar d ++ y) : c = d ∧ x = y := by
  have e : c = d := by
    have h1 := ByteArray.utf8DecodeChar?_utf8EncodeChar_append (b := x.toByteArray) (c := c)
    have h2 := ByteArray.utf8DecodeChar?_utf8EncodeChar_append (b := y.toByteArray) (c := d)
    rw [← List.toByteArray_append] at h1 h2
    rw [h, h2] at h1
    exact (Option.some.inj h1).symm
  subst e
  exact ⟨rfl, List.append_cancel_left h⟩

theorem utf8_prefix (s x : Str) (r : Bytes) (h : s.flatMap String.utf8EncodeChar ++ r = x.flatMap String.utf8EncodeChar) : ∃ y, x = s ++ y := by
  induction s generalizing x with
  | nil => exact ⟨x, rfl⟩
  | cons c s ih =>
    cases x with
    | nil =>
      exfalso
      have := congrArg List.length h
      simp only [List.flatMap_cons, List.length_append, List.flatMap_nil, List.length_nil] at this
      have h2 : (String.utf8EncodeChar c).length = c.utf8Size := String.length_utf8EncodeChar c
      have h3 := c.utf8Size_pos
      omega
    | cons d x =>
      rw [List.flatMap_cons, List.flatMap_cons, List.append_assoc] at h
      obtain ⟨e, h'⟩ := utf8_char_inj h
      obtain ⟨y, rfl⟩ := ih x h'
      subst e
      exact ⟨y, rfl⟩

theorem prefixSafe_utf8 : PrefixSafe .utf8 := by
  intro s b r x h1 h2
  cases h1
  simp only [Codec.utf8] at h2
  cases hd : (s.flatMap String.utf8EncodeChar ++ r).toByteArray.utf8Decode? with
  | none => rw [hd] at h2; cases h2
  | some a =>
    have hs : (s.flatMap String.utf8EncodeChar ++ r).toByteArray.utf8Decode?.isSome := by rw [hd]; rfl
    obtain ⟨m, hm⟩ := ByteArray.isSome_utf8Decode?_iff.1 hs
    rw [hm, List.utf8Decode?_utf8Encode] at h2
    have hx : m = x := by simpa using h2
    subst hx
    refine utf8_prefix s m r ?_
    have := congrArg (fun b : ByteArray => b.data.toList) hm
    simpa [List.utf8Encode] using this

/-! ## Lemmas -/

theorem sharedRun_concat (old : Bytes) (l : List (Nat × FileOp)) (x : Nat × FileOp) :
    sharedRun old (l ++ [x]) = (sharedRun old l).step x.1 x.2 := by
  simp [sharedRun]

/-- A process that has only opened the file is at its beginning. -/
theorem position_opened (old : Bytes) (l : List (Nat × FileOp)) (i : Nat)
    (h : (l.filter fun x => decide (x.1 = i)).map Prod.snd = [.opens] ∨ (l.filter fun x => decide (x.1 = i)).map Prod.snd = []) :
    (sharedRun old l).position i = 0 := by
  induction l using List.reverseRecOn with
  | nil => rfl
  | append_singleton l x ih =>
    rw [sharedRun_concat]
    obtain ⟨j, op⟩ := x
    by_cases hj : j = i
    · subst hj
      cases op with
      | opens => simp [Shared.step]
      | writes b =>
        exfalso
        rcases h with h | h
        · have := congrArg List.getLast? h
          simp [List.filter_append] at this
        · simp [List.filter_append] at h
    · have hf : ((l ++ [(j, op)]).filter fun x => decide (x.1 = i)) = l.filter fun x => decide (x.1 = i) := by
        simp [List.filter_append, hj]
      rw [hf] at h
      have := ih h
      have hij : i ≠ j := fun e => hj e.symm
      cases op <;> simp only [Shared.step, if_neg hij, this]

theorem overwrite_start (c b : Bytes) : overwrite c 0 b = b ++ c.drop b.length := by
  simp [overwrite]

/-- The steps of processes that write all their bytes at once: the last step is a write, and what was written last is at the
beginning of the file. -/
theorem shared_last (bs : List Bytes) (hne : bs ≠ []) (old : Bytes) (l : List (Nat × FileOp))
    (hl : Interleaves (bs.map fun b => [.opens, .writes b]) l) :
    ∃ i b l', l = l' ++ [(i, .writes b)] ∧ bs[i]? = some b ∧
      (sharedRun old l).content = b ++ (sharedRun old l').content.drop b.length := by
  rcases List.eq_nil_or_concat l with rfl | ⟨l', ⟨i, op⟩, rfl⟩
  · exfalso
    have := hl 0
    cases bs with
    | nil => exact hne rfl
    | cons b bs => simp at this
  · have hi := hl i
    rw [List.concat_eq_append] at hi ⊢
    simp only [List.filter_append, List.filter_cons, List.filter_nil, decide_true, if_true, List.map_append, List.map_cons, List.map_nil] at hi
    cases hb : bs[i]? with
    | none =>
      rw [List.getD_eq_getElem?_getD, List.getElem?_map, hb] at hi
      simp at hi
    | some b =>
      rw [List.getD_eq_getElem?_getD, List.getElem?_map, hb] at hi
      have hi : (l'.filter fun x => decide (x.1 = i)).map Prod.snd ++ [op] = [.opens] ++ [.writes b] := hi
      obtain ⟨h1, h2⟩ := List.append_inj' hi rfl
      cases h2
      refine ⟨i, b, l', rfl, hb, ?_⟩
      rw [sharedRun_concat]
      simp only [Shared.step]
      rw [position_opened old l' i (.inl h1), overwrite_start]

/-- `to_file` that succeeds and whose bytes reach the file at once. -/
theorem Doc.ops_of (d : Doc) {env : Env} {fp : Option Path} {enc : Option Codec} {fs : FS} (hok : (d.toFile env fp enc fs).outcome = .ok ())
    (hc : ∀ b, env.chunks b = [b]) : ∃ b, d.bytes env enc = some b ∧ (d.toFile env fp enc fs).ops = [.opens, .writes b] := by
  rcases d.toFile_shape env fp enc fs with ⟨-, ⟨e, h'⟩, -⟩ | ⟨p, -, -, ⟨e, -, h'⟩ | ⟨b, n, -, -, -, h'⟩ | ⟨b, hb, -, h'⟩⟩
  · rw [hok] at h'; cases h'
  · rw [h'] at hok; cases hok
  · rw [h'] at hok; cases hok
  · refine ⟨b, hb, ?_⟩
    rw [h', Attempt.ops, hc]
    rfl

theorem universal_prefix (env : Env) (s y : Str) (h : '\r' ∉ s) : universalNewlines (env.toLines s ++ y) = s ++ universalNewlines y := by
  unfold Env.toLines
  split
  · induction s with
    | nil => rfl
    | cons c r ih =>
      have hc : c ≠ '\r' := fun e => h (by simp [e])
      have hr : '\r' ∉ r := fun e => h (by simp [e])
      rw [List.flatMap_cons]
      by_cases hn : c = '\n'
      · subst hn
        rw [if_pos rfl]
        exact congrArg ('\n' :: ·) (ih hr)
      · rw [if_neg hn]
        exact (universal_cons hc).trans (congrArg (c :: ·) (ih hr))
  · induction s with
    | nil => rfl
    | cons c r ih =>
      have hc : c ≠ '\r' := fun e => h (by simp [e])
      have hr : '\r' ∉ r := fun e => h (by simp [e])
      exact (universal_cons hc).trans (congrArg (c :: ·) (ih hr))

/-- More text behind an expression: the same tree, or an exception. -/
theorem parse_behind {x : Str} {v : Val} (h : Lexes (.ok x) [v]) (r : Str) (w : Val) (hw : parseSexp (x ++ r) = .ok w) : w = v := by
  obtain ⟨x', hx', hx⟩ := h
  cases Except.ok.inj hx'
  have hl := (hx r (lex r) ⟨rfl, trivial⟩).lex
  rw [toksL_cons, toksL_nil, List.append_nil] at hl
  rw [parseSexp, hl, depthOk_toks_run] at hw
  by_cases hd : depthOk 0 (lex r) = true
  · rw [run_done _ [] [v] v (by simp) hd] at hw
    exact (Except.ok.inj hw).symm
  · rw [run_bad _ [] _ (by simpa using hd)] at hw
    cases hw

theorem shared_loads {α : Type} {load : Env → Path → Option Codec → FileM α} {g : Val → PyM α} {k : Path → α → α}
    (hload : Faithful load fun p text => (parseSexp text >>= g).map (k p))
    (ds : List Doc) (hne : ds ≠ []) (hw : ∀ d ∈ ds, ∃ v, Lexes d.text [v]) {env env' : Env} {enc enc' : Option Codec} {c : Codec}
    (hd : ∀ d ∈ ds, d.codec env enc = c) (hu : used env' enc' = c) (hl : c.Lawful) (hs : PrefixSafe c) (hc : ∀ b, env.chunks b = [b])
    {p : Path} {fs : FS} (hr : fs.canRead p = true) (hok : ∀ d ∈ ds, (d.toFile env (some p) enc fs).outcome = .ok ())
    (hcr : ∀ d ∈ ds, ∀ s, d.text = .ok s → '\r' ∉ s)
    {old : Bytes} {l : List (Nat × FileOp)} (hi : Interleaves (ds.map fun d => (d.toFile env (some p) enc fs).ops) l) {fs' : FS}
    (hn : HasContent fs' p (sharedRun old l).content) (o' : α) (h : (load env' p enc' fs').1 = .ok o') :
    ∃ i d, lastProcess l = some i ∧ ds[i]? = some d ∧ (load env' p enc' ((d.toFile env (some p) enc fs).final fs)).1 = .ok o' := by
  have hb : ∀ d ∈ ds, ∃ b, d.bytes env enc = some b ∧ (d.toFile env (some p) enc fs).ops = [.opens, .writes b] := fun d hd =>
    d.ops_of (hok d hd) hc
  have hm : (ds.map fun d => (d.toFile env (some p) enc fs).ops) =
      (ds.map fun d => (d.bytes env enc).getD []).map fun b => [.opens, .writes b] := by
    rw [List.map_map]
    refine List.map_congr_left fun d hd => ?_
    obtain ⟨b, h1, h2⟩ := hb d hd
    rw [h2, Function.comp, h1]
    rfl
  rw [hm] at hi
  obtain ⟨i, b, l', rfl, hib, hcont⟩ := shared_last _ (by simpa using hne) old l hi
  rw [List.getElem?_map] at hib
  cases hid : ds[i]? with
  | none => rw [hid] at hib; cases hib
  | some d =>
    rw [hid] at hib
    have hmem : d ∈ ds := List.mem_of_getElem? hid
    refine ⟨i, d, by simp [lastProcess], hid, ?_⟩
    obtain ⟨b', hb', -⟩ := hb d hmem
    have : b' = b := by rw [Option.map_some, hb'] at hib; exact Option.some.inj hib
    subst this
    obtain ⟨v, hv⟩ := hw d hmem
    obtain ⟨s, hs'⟩ : ∃ s, d.text = .ok s := ⟨_, hv.choose_spec.1⟩
    have henc : c.encode (env.toLines s) = some b' := by
      unfold Doc.bytes at hb'
      rw [hs', hd d hmem] at hb'
      exact hb'
    obtain ⟨text, ⟨b1, s1, h1, h2, h3, h4⟩, h5⟩ := (hload.success ..).1 h
    cases hn.symm.trans h1
    rw [hcont, used_decode, hu] at h3
    obtain ⟨y, rfl⟩ := hs _ _ _ _ henc h3
    rw [h4.eq, universal_prefix env s y (hcr d hmem s hs')] at h5
    refine (hload.success ..).2 ⟨s, ?_, ?_⟩
    · obtain ⟨p', b2, hp', hb2, hn2⟩ := C27_content d env (some p) enc fs (hok d hmem)
      have hpp : p = p' := Option.some.inj hp'
      subst hpp
      cases hb'.symm.trans hb2
      refine ⟨b', env.toLines s, hn2, save_canRead d env (some p) enc fs p hr, ?_, ?_⟩
      · rw [used_decode, hu]
        exact hl _ _ henc
      · have := textMode_universal (env.toLines s)
        rwa [universal_toLines env s (hcr d hmem s hs')] at this
    · rw [hs'] at hv
      have hp := hv.parse
      have hp : parseSexp s = .ok v := hp
      cases hq : parseSexp (s ++ universalNewlines y) with
      | error e => rw [hq] at h5; cases h5
      | ok w =>
        cases parse_behind hv _ w hq
        rw [hq] at h5
        rw [hp]
        exact h5

/-! ## One process

If only one process writes, the model of several processes says the same as `Model/Files.lean`. -/

theorem sharedRun_alone (bs : List Bytes) (done : Bytes) (st : Shared) (hc : st.content = done) (hp : st.position 0 = done.length) :
    ((bs.map fun b => ((0 : Nat), FileOp.writes b)).foldl (fun s x => s.step x.1 x.2) st).content = done ++ bs.flatten := by
  induction bs generalizing done st with
  | nil => simp [hc]
  | cons b bs ih =>
    rw [List.map_cons, List.foldl_cons, ih (done ++ b), List.flatten_cons, List.append_assoc]
    · simp only [Shared.step, hp, hc, overwrite]
      simp
    · simp [Shared.step, hp]

/-- One process leaves the content that `to_file` leaves, in whatever portions it is written. -/
theorem C88_alone (d : Doc) (env : Env) (enc : Option Codec) (p : Path) (fs : FS) (hok : (d.toFile env (some p) enc fs).outcome = .ok ())
    (old : Bytes) : HasContent ((d.toFile env (some p) enc fs).final fs) p
      (sharedRun old ((d.toFile env (some p) enc fs).ops.map fun op => (0, op))).content := by
  obtain ⟨p', b, hp', hb, hn⟩ := C27_content d env (some p) enc fs hok
  cases Option.some.inj hp'
  rcases d.toFile_shape env (some p) enc fs with ⟨-, ⟨e, h'⟩, -⟩ | ⟨p, -, -, ⟨e, -, h'⟩ | ⟨b, n, -, -, -, h'⟩ | ⟨b', hb', -, h'⟩⟩
  · rw [hok] at h'; cases h'
  · rw [h'] at hok; cases hok
  · rw [h'] at hok; cases hok
  · cases hb.symm.trans hb'
    unfold HasContent
    rw [hn, h', Attempt.ops]
    congr 2
    simp only [List.map_cons, List.map_map, sharedRun, List.foldl_cons]
    have := sharedRun_alone (env.chunks b) [] (Shared.step ⟨old, fun _ => 0⟩ 0 .opens) rfl rfl
    rw [env.chunks_flatten, List.nil_append] at this
    exact this.symm
set_option maxRecDepth 100000 in
example := C88_alone (.libTable sampleLibTable) (Env.simple .latin1 true) none k!"a" (FS.two k!"a" k!"b" [1] [2])
  (save_ok (.libTable sampleLibTable) _ k!"a" none _ rfl (two_openable _ _ _ _) (by decide +kernel))

/-! ## Several processes, each of which writes everything at once -/

theorem sharedRun_length (bs : List Bytes) (m : Nat) (hm : ∀ b ∈ bs, b.length ≤ m) (l : List (Nat × FileOp)) (old : Bytes)
    (hl : ∀ i, ∃ r, (l.filter fun x => decide (x.1 = i)).map Prod.snd ++ r = (bs.map fun b => [.opens, .writes b]).getD i []) :
    (∀ x ∈ l, x.2 ≠ FileOp.opens) ∨ (sharedRun old l).content.length ≤ m := by
  induction l using List.reverseRecOn with
  | nil => exact .inl fun x hx => absurd hx List.not_mem_nil
  | append_singleton l x ih =>
    have hl' : ∀ i, ∃ r, (l.filter fun x => decide (x.1 = i)).map Prod.snd ++ r = (bs.map fun b => [.opens, .writes b]).getD i [] := by
      intro i
      obtain ⟨r, hr⟩ := hl i
      rw [List.filter_append, List.map_append, List.append_assoc] at hr
      exact ⟨_, hr⟩
    obtain ⟨j, op⟩ := x
    rw [sharedRun_concat]
    cases op with
    | opens => exact .inr (by simp [Shared.step])
    | writes b =>
      right
      obtain ⟨r, hr⟩ := hl j
      simp only [List.filter_append, List.filter_cons, List.filter_nil, decide_true, if_true, List.map_append, List.map_cons, List.map_nil,
        List.append_assoc, List.cons_append, List.nil_append] at hr
      cases hb : bs[j]? with
      | none =>
        rw [List.getD_eq_getElem?_getD, List.getElem?_map, hb] at hr
        simp at hr
      | some b' =>
        rw [List.getD_eq_getElem?_getD, List.getElem?_map, hb] at hr
        have hr : (l.filter fun x => decide (x.1 = j)).map Prod.snd ++ FileOp.writes b :: r = [.opens, .writes b'] := hr
        generalize hf : (l.filter fun x => decide (x.1 = j)).map Prod.snd = q at hr
        match q, hf, hr with
        | [], _, hr => cases hr
        | [_], hf, hr =>
          cases hr
          have hopen : ∃ x ∈ l, x.2 = FileOp.opens := by
            have : FileOp.opens ∈ (l.filter fun x => decide (x.1 = j)).map Prod.snd := by rw [hf]; exact List.mem_singleton.2 rfl
            obtain ⟨x, hx, e⟩ := List.mem_map.1 this
            exact ⟨x, (List.mem_filter.1 hx).1, e⟩
          have hlen : (sharedRun old l).content.length ≤ m := by
            rcases ih hl' with h | h
            · obtain ⟨x, hx, e⟩ := hopen
              exact absurd e (h x hx)
            · exact h
          have hb' := hm b (List.mem_of_getElem? hb)
          simp only [Shared.step]
          rw [position_opened old l j (.inl hf), overwrite_start, List.length_append, List.length_drop]
          omega
        | _ :: _ :: _, _, hr =>
          have := congrArg List.length hr
          simp at this

/-- If what is written last is not shorter than what the others write, the file is as if only the last process had written it. -/
theorem C88_not_shorter (ds : List Doc) (hne : ds ≠ []) (env : Env) (hc : ∀ b, env.chunks b = [b]) (enc : Option Codec) (p : Path) (fs : FS)
    (hok : ∀ d ∈ ds, (d.toFile env (some p) enc fs).outcome = .ok ()) (old : Bytes) (l : List (Nat × FileOp))
    (hi : Interleaves (ds.map fun d => (d.toFile env (some p) enc fs).ops) l) :
    ∃ i d b, lastProcess l = some i ∧ ds[i]? = some d ∧ d.bytes env enc = some b ∧
      ((∀ d' ∈ ds, ∀ b', d'.bytes env enc = some b' → b'.length ≤ b.length) →
        (sharedRun old l).content = b ∧ HasContent ((d.toFile env (some p) enc fs).final fs) p b) := by
  have hb : ∀ d ∈ ds, ∃ b, d.bytes env enc = some b ∧ (d.toFile env (some p) enc fs).ops = [.opens, .writes b] := fun d hd =>
    d.ops_of (hok d hd) hc
  have hm : (ds.map fun d => (d.toFile env (some p) enc fs).ops) =
      (ds.map fun d => (d.bytes env enc).getD []).map fun b => [.opens, .writes b] := by
    rw [List.map_map]
    refine List.map_congr_left fun d hd => ?_
    obtain ⟨b, h1, h2⟩ := hb d hd
    rw [h2, Function.comp, h1]
    rfl
  rw [hm] at hi
  obtain ⟨i, b, l', rfl, hib, hcont⟩ := shared_last _ (by simpa using hne) old l hi
  rw [List.getElem?_map] at hib
  cases hid : ds[i]? with
  | none => rw [hid] at hib; cases hib
  | some d =>
    rw [hid] at hib
    have hmem : d ∈ ds := List.mem_of_getElem? hid
    obtain ⟨b', hb', -⟩ := hb d hmem
    have : b' = b := by rw [Option.map_some, hb'] at hib; exact Option.some.inj hib
    subst this
    refine ⟨i, d, b', by simp [lastProcess], hid, hb', fun hlen => ⟨?_, ?_⟩⟩
    · have h1 : ∀ x ∈ ds.map fun d => (d.bytes env enc).getD [], x.length ≤ b'.length := by
        intro x hx
        obtain ⟨d', hd', rfl⟩ := List.mem_map.1 hx
        obtain ⟨b1, hb1, -⟩ := hb d' hd'
        rw [hb1]
        exact hlen d' hd' b1 hb1
      have h2 := sharedRun_length _ b'.length h1 (l' ++ [(i, .writes b')]) old fun j => ⟨[], by rw [List.append_nil]; exact hi j⟩
      have h3 : (sharedRun old (l' ++ [(i, .writes b')])).content.length ≤ b'.length := by
        rcases h2 with h | h
        · exfalso
          have := hi i
          rw [List.getD_eq_getElem?_getD, List.getElem?_map, List.getElem?_map, hid] at this
          have hmo : FileOp.opens ∈ ((l' ++ [(i, FileOp.writes b')]).filter fun x => decide (x.1 = i)).map Prod.snd := by
            rw [this]; exact List.mem_cons_self
          obtain ⟨x, hx, e⟩ := List.mem_map.1 hmo
          exact h x (List.mem_filter.1 hx).1 e
        · exact h
      rw [hcont, List.length_append] at h3
      rw [hcont]
      have : ((sharedRun old l').content.drop b'.length).length = 0 := by omega
      rw [List.length_eq_zero_iff.1 this, List.append_nil]
    · obtain ⟨p', b2, hp', hb2, hn2⟩ := C27_content d env (some p) enc fs (hok d hmem)
      cases Option.some.inj hp'
      cases hb'.symm.trans hb2
      exact hn2

theorem faithful_plain {α : Type} {load : Env → Path → Option Codec → FileM α} {read : Str → PyM α} (h : Faithful load fun _ text => read text) :
    Faithful load fun _ text => (read text).map fun o => o := by
  have e : (fun (_ : Path) text => (read text).map fun o => o) = fun _ text => read text := by
    funext _ text
    cases read text <;> rfl
  rw [e]
  exact h

/-- Two processes: both open the file, then both write. -/
theorem interleaves_two (a b : Bytes) :
    Interleaves [[.opens, .writes a], [.opens, .writes b]] [(0, .opens), (1, .opens), (0, .writes a), (1, .writes b)] := by
  intro i
  match i with
  | 0 => rfl
  | 1 => rfl
  | i + 2 => simp

theorem C88_LibTable_partial (os : List LibTable) (hne : os ≠ []) (hw : ∀ o ∈ os, o.WF) (env env' : Env) (enc enc' : Option Codec)
    (hu : used env' enc' = used env enc) (hl : (used env enc).Lawful) (hs : PrefixSafe (used env enc)) (hc : ∀ b, env.chunks b = [b]) (p : Path)
    (fs : FS) (hr : fs.canRead p = true) (hok : ∀ o ∈ os, (o.toFile env (some p) enc fs).outcome = .ok ()) (hcr : ∀ o ∈ os, '\r' ∉ o.toSexpr)
    (old : Bytes) (l : List (Nat × FileOp)) (hi : Interleaves (os.map fun o => (o.toFile env (some p) enc fs).ops) l) (fs' : FS)
    (hn : HasContent fs' p (sharedRun old l).content) (o' : LibTable) (h : (LibTable.fromFile env' p enc' fs').1 = .ok o') :
    ∃ i o, lastProcess l = some i ∧ os[i]? = some o ∧ (LibTable.fromFile env' p enc' ((o.toFile env (some p) enc fs).final fs)).1 = .ok o' := by
  have := shared_loads C58_LibTable (os.map Doc.libTable) (by simpa using hne) (env := env) (env' := env') (enc := enc) (enc' := enc') (c := used env enc)
    (fun d hd => by obtain ⟨o, ho, rfl⟩ := List.mem_map.1 hd; exact ⟨_, Lexes.one fun _ _ hs => LibTable.lx (hw o ho) hs⟩)
    (fun d hd => by obtain ⟨o, ho, rfl⟩ := List.mem_map.1 hd; cases enc <;> rfl) hu hl hs hc (p := p) (fs := fs) hr
    (fun d hd => by obtain ⟨o, ho, rfl⟩ := List.mem_map.1 hd; exact hok o ho)
    (fun d hd s hs => by obtain ⟨o, ho, rfl⟩ := List.mem_map.1 hd; cases Except.ok.inj hs; exact hcr o ho)
    (old := old) (l := l) (by rw [List.map_map]; exact hi) hn o' h
  obtain ⟨i, d, h1, h2, h3⟩ := this
  rw [List.getElem?_map] at h2
  cases ho : os[i]? with
  | none => rw [ho] at h2; cases h2
  | some o =>
    rw [ho] at h2
    cases h2
    exact ⟨i, o, h1, ho, h3⟩
set_option maxRecDepth 100000 in
example := C88_LibTable_partial [sampleLibTable] (by simp) (fun o ho => by cases List.mem_singleton.1 ho; exact sampleLibTable_wf) (Env.simple .latin1 false) (Env.simple .latin1 false) none none
  rfl Codec.latin1_lawful prefixSafe_latin1 (fun _ => rfl) k!"a" (FS.two k!"a" k!"b" [1] [2]) rfl
  (fun o ho => by cases List.mem_singleton.1 ho; exact save_ok (.libTable sampleLibTable) (Env.simple .latin1 false) k!"a" none (FS.two k!"a" k!"b" [1] [2]) rfl (two_openable _ _ _ _) (by decide +kernel))
  (fun o ho => by cases List.mem_singleton.1 ho; exact (by decide +kernel))

theorem C88_WorkSheet_partial (os : List WorkSheet) (hne : os ≠ []) (hw : ∀ o ∈ os, o.WF) (env env' : Env) (enc' : Option Codec)
    (hu : used env' enc' = env.locale) (hl : (env.locale).Lawful) (hs : PrefixSafe (env.locale)) (hc : ∀ b, env.chunks b = [b]) (p : Path)
    (fs : FS) (hr : fs.canRead p = true) (hok : ∀ o ∈ os, (o.toFile env (some p) fs).outcome = .ok ()) (hcr : ∀ o ∈ os, ∀ s, o.toSexpr = .ok s → '\r' ∉ s)
    (old : Bytes) (l : List (Nat × FileOp)) (hi : Interleaves (os.map fun o => (o.toFile env (some p) fs).ops) l) (fs' : FS)
    (hn : HasContent fs' p (sharedRun old l).content) (o' : WorkSheet) (h : (WorkSheet.fromFile env' p enc' fs').1 = .ok o') :
    ∃ i o, lastProcess l = some i ∧ os[i]? = some o ∧ (WorkSheet.fromFile env' p enc' ((o.toFile env (some p) fs).final fs)).1 = .ok o' := by
  have := shared_loads C58_WorkSheet (os.map Doc.workSheet) (by simpa using hne) (env := env) (env' := env') (enc := none) (enc' := enc') (c := env.locale)
    (fun d hd => by obtain ⟨o, ho, rfl⟩ := List.mem_map.1 hd; exact ⟨_, WorkSheet.lx (hw o ho) 0 _⟩)
    (fun d hd => by obtain ⟨o, ho, rfl⟩ := List.mem_map.1 hd; rfl) hu hl hs hc (p := p) (fs := fs) hr
    (fun d hd => by obtain ⟨o, ho, rfl⟩ := List.mem_map.1 hd; exact hok o ho)
    (fun d hd s hs => by obtain ⟨o, ho, rfl⟩ := List.mem_map.1 hd; exact hcr o ho s hs)
    (old := old) (l := l) (by rw [List.map_map]; exact hi) hn o' h
  obtain ⟨i, d, h1, h2, h3⟩ := this
  rw [List.getElem?_map] at h2
  cases ho : os[i]? with
  | none => rw [ho] at h2; cases h2
  | some o =>
    rw [ho] at h2
    cases h2
    exact ⟨i, o, h1, ho, h3⟩
set_option maxRecDepth 100000 in
example := C88_WorkSheet_partial [sampleWorkSheet] (by simp) (fun o ho => by cases List.mem_singleton.1 ho; exact sampleWorkSheet_wf) (Env.simple .latin1 false) (Env.simple .latin1 false) none
  rfl Codec.latin1_lawful prefixSafe_latin1 (fun _ => rfl) k!"a" (FS.two k!"a" k!"b" [1] [2]) rfl
  (fun o ho => by cases List.mem_singleton.1 ho; exact save_ok (.workSheet sampleWorkSheet) (Env.simple .latin1 false) k!"a" none (FS.two k!"a" k!"b" [1] [2]) rfl (two_openable _ _ _ _) (by decide +kernel))
  (fun o ho => by cases List.mem_singleton.1 ho; exact (noCR_iff (by decide +kernel)))

theorem C88_SymbolLib_partial (os : List SymbolLib) (hne : os ≠ []) (hw : ∀ o ∈ os, o.WF) (env env' : Env) (enc enc' : Option Codec)
    (hu : used env' enc' = used env enc) (hl : (used env enc).Lawful) (hs : PrefixSafe (used env enc)) (hc : ∀ b, env.chunks b = [b]) (p : Path)
    (fs : FS) (hr : fs.canRead p = true) (hok : ∀ o ∈ os, (o.toFile env (some p) enc fs).outcome = .ok ()) (hcr : ∀ o ∈ os, '\r' ∉ o.toSexpr)
    (old : Bytes) (l : List (Nat × FileOp)) (hi : Interleaves (os.map fun o => (o.toFile env (some p) enc fs).ops) l) (fs' : FS)
    (hn : HasContent fs' p (sharedRun old l).content) (o' : SymbolLib) (h : (SymbolLib.fromFile env' p enc' fs').1 = .ok o') :
    ∃ i o, lastProcess l = some i ∧ os[i]? = some o ∧ (SymbolLib.fromFile env' p enc' ((o.toFile env (some p) enc fs).final fs)).1 = .ok o' := by
  have := shared_loads C58_SymbolLib (os.map Doc.symbolLib) (by simpa using hne) (env := env) (env' := env') (enc := enc) (enc' := enc') (c := used env enc)
    (fun d hd => by obtain ⟨o, ho, rfl⟩ := List.mem_map.1 hd; exact ⟨_, Lexes.one fun _ _ hs => SymbolLib.lx (hw o ho) hs⟩)
    (fun d hd => by obtain ⟨o, ho, rfl⟩ := List.mem_map.1 hd; cases enc <;> rfl) hu hl hs hc (p := p) (fs := fs) hr
    (fun d hd => by obtain ⟨o, ho, rfl⟩ := List.mem_map.1 hd; exact hok o ho)
    (fun d hd s hs => by obtain ⟨o, ho, rfl⟩ := List.mem_map.1 hd; cases Except.ok.inj hs; exact hcr o ho)
    (old := old) (l := l) (by rw [List.map_map]; exact hi) hn o' h
  obtain ⟨i, d, h1, h2, h3⟩ := this
  rw [List.getElem?_map] at h2
  cases ho : os[i]? with
  | none => rw [ho] at h2; cases h2
  | some o =>
    rw [ho] at h2
    cases h2
    exact ⟨i, o, h1, ho, h3⟩
set_option maxRecDepth 100000 in
example := C88_SymbolLib_partial [sampleSymbolLib] (by simp) (fun o ho => by cases List.mem_singleton.1 ho; exact sampleSymbolLib_wf) (Env.simple .latin1 false) (Env.simple .latin1 false) none none
  rfl Codec.latin1_lawful prefixSafe_latin1 (fun _ => rfl) k!"a" (FS.two k!"a" k!"b" [1] [2]) rfl
  (fun o ho => by cases List.mem_singleton.1 ho; exact save_ok (.symbolLib sampleSymbolLib) (Env.simple .latin1 false) k!"a" none (FS.two k!"a" k!"b" [1] [2]) rfl (two_openable _ _ _ _) (by decide +kernel))
  (fun o ho => by cases List.mem_singleton.1 ho; exact (by decide +kernel))

theorem C88_Schematic_partial (os : List Schematic) (hne : os ≠ []) (hw : ∀ o ∈ os, o.WF) (env env' : Env) (enc enc' : Option Codec)
    (hu : used env' enc' = used env enc) (hl : (used env enc).Lawful) (hs : PrefixSafe (used env enc)) (hc : ∀ b, env.chunks b = [b]) (p : Path)
    (fs : FS) (hr : fs.canRead p = true) (hok : ∀ o ∈ os, (o.toFile env (some p) enc fs).outcome = .ok ()) (hcr : ∀ o ∈ os, ∀ s, o.toSexpr = .ok s → '\r' ∉ s)
    (old : Bytes) (l : List (Nat × FileOp)) (hi : Interleaves (os.map fun o => (o.toFile env (some p) enc fs).ops) l) (fs' : FS)
    (hn : HasContent fs' p (sharedRun old l).content) (o' : Schematic) (h : (Schematic.fromFile env' p enc' fs').1 = .ok o') :
    ∃ i o, lastProcess l = some i ∧ os[i]? = some o ∧ (Schematic.fromFile env' p enc' ((o.toFile env (some p) enc fs).final fs)).1 = .ok o' := by
  have := shared_loads C58_Schematic (os.map Doc.schematic) (by simpa using hne) (env := env) (env' := env') (enc := enc) (enc' := enc') (c := used env enc)
    (fun d hd => by obtain ⟨o, ho, rfl⟩ := List.mem_map.1 hd; exact ⟨_, Schematic.lexes (hw o ho) 0 _⟩)
    (fun d hd => by obtain ⟨o, ho, rfl⟩ := List.mem_map.1 hd; cases enc <;> rfl) hu hl hs hc (p := p) (fs := fs) hr
    (fun d hd => by obtain ⟨o, ho, rfl⟩ := List.mem_map.1 hd; exact hok o ho)
    (fun d hd s hs => by obtain ⟨o, ho, rfl⟩ := List.mem_map.1 hd; exact hcr o ho s hs)
    (old := old) (l := l) (by rw [List.map_map]; exact hi) hn o' h
  obtain ⟨i, d, h1, h2, h3⟩ := this
  rw [List.getElem?_map] at h2
  cases ho : os[i]? with
  | none => rw [ho] at h2; cases h2
  | some o =>
    rw [ho] at h2
    cases h2
    exact ⟨i, o, h1, ho, h3⟩
set_option maxRecDepth 100000 in
example := C88_Schematic_partial [smallSchematic] (by simp) (fun o ho => by cases List.mem_singleton.1 ho; exact smallSchematic_wf) (Env.simple .latin1 false) (Env.simple .latin1 false) none none
  rfl Codec.latin1_lawful prefixSafe_latin1 (fun _ => rfl) k!"a" (FS.two k!"a" k!"b" [1] [2]) rfl
  (fun o ho => by cases List.mem_singleton.1 ho; exact save_ok (.schematic smallSchematic) (Env.simple .latin1 false) k!"a" none (FS.two k!"a" k!"b" [1] [2]) rfl (two_openable _ _ _ _) (by decide +kernel))
  (fun o ho => by cases List.mem_singleton.1 ho; exact (noCR_iff (by decide +kernel)))

theorem C88_Footprint_partial (os : List Footprint) (hne : os ≠ []) (hw : ∀ o ∈ os, o.WF) (env env' : Env) (enc enc' : Option Codec)
    (hu : used env' enc' = used env enc) (hl : (used env enc).Lawful) (hs : PrefixSafe (used env enc)) (hc : ∀ b, env.chunks b = [b]) (tedit : Val) (p : Path)
    (fs : FS) (hr : fs.canRead p = true) (hok : ∀ o ∈ os, (o.toFile env (some p) enc fs).outcome = .ok ()) (hcr : ∀ o ∈ os, ∀ s, o.toSexpr = .ok s → '\r' ∉ s)
    (old : Bytes) (l : List (Nat × FileOp)) (hi : Interleaves (os.map fun o => (o.toFile env (some p) enc fs).ops) l) (fs' : FS)
    (hn : HasContent fs' p (sharedRun old l).content) (o' : Footprint) (h : (Footprint.fromFile env' tedit p enc' fs').1 = .ok o') :
    ∃ i o, lastProcess l = some i ∧ os[i]? = some o ∧ (Footprint.fromFile env' tedit p enc' ((o.toFile env (some p) enc fs).final fs)).1 = .ok o' := by
  have := shared_loads (g := Footprint.fromSexpr tedit) (k := fun _ o => o) (faithful_plain (C58_Footprint tedit)) (os.map Doc.footprint) (by simpa using hne) (env := env) (env' := env') (enc := enc) (enc' := enc') (c := used env enc)
    (fun d hd => by obtain ⟨o, ho, rfl⟩ := List.mem_map.1 hd; exact ⟨_, Footprint.lexes (hw o ho) 0 _ _⟩)
    (fun d hd => by obtain ⟨o, ho, rfl⟩ := List.mem_map.1 hd; cases enc <;> rfl) hu hl hs hc (p := p) (fs := fs) hr
    (fun d hd => by obtain ⟨o, ho, rfl⟩ := List.mem_map.1 hd; exact hok o ho)
    (fun d hd s hs => by obtain ⟨o, ho, rfl⟩ := List.mem_map.1 hd; exact hcr o ho s hs)
    (old := old) (l := l) (by rw [List.map_map]; exact hi) hn o' h
  obtain ⟨i, d, h1, h2, h3⟩ := this
  rw [List.getElem?_map] at h2
  cases ho : os[i]? with
  | none => rw [ho] at h2; cases h2
  | some o =>
    rw [ho] at h2
    cases h2
    exact ⟨i, o, h1, ho, h3⟩
set_option maxRecDepth 100000 in
example := C88_Footprint_partial [smallFootprint] (by simp) (fun o ho => by cases List.mem_singleton.1 ho; exact smallFootprint_wf) (Env.simple .latin1 false) (Env.simple .latin1 false) none none
  rfl Codec.latin1_lawful prefixSafe_latin1 (fun _ => rfl) (.str k!"0") k!"a" (FS.two k!"a" k!"b" [1] [2]) rfl
  (fun o ho => by cases List.mem_singleton.1 ho; exact save_ok (.footprint smallFootprint) (Env.simple .latin1 false) k!"a" none (FS.two k!"a" k!"b" [1] [2]) rfl (two_openable _ _ _ _) (by decide +kernel))
  (fun o ho => by cases List.mem_singleton.1 ho; exact (noCR_iff (by decide +kernel)))

theorem C88_Board_partial (os : List Board) (hne : os ≠ []) (hw : ∀ o ∈ os, o.WF) (env env' : Env) (enc enc' : Option Codec)
    (hu : used env' enc' = used env enc) (hl : (used env enc).Lawful) (hs : PrefixSafe (used env enc)) (hc : ∀ b, env.chunks b = [b]) (tedit : Val) (p : Path)
    (fs : FS) (hr : fs.canRead p = true) (hok : ∀ o ∈ os, (o.toFile env (some p) enc fs).outcome = .ok ()) (hcr : ∀ o ∈ os, ∀ s, o.toSexpr = .ok s → '\r' ∉ s)
    (old : Bytes) (l : List (Nat × FileOp)) (hi : Interleaves (os.map fun o => (o.toFile env (some p) enc fs).ops) l) (fs' : FS)
    (hn : HasContent fs' p (sharedRun old l).content) (o' : Board) (h : (Board.fromFile env' tedit p enc' fs').1 = .ok o') :
    ∃ i o, lastProcess l = some i ∧ os[i]? = some o ∧ (Board.fromFile env' tedit p enc' ((o.toFile env (some p) enc fs).final fs)).1 = .ok o' := by
  have := shared_loads (C58_Board tedit) (os.map Doc.board) (by simpa using hne) (env := env) (env' := env') (enc := enc) (enc' := enc') (c := used env enc)
    (fun d hd => by obtain ⟨o, ho, rfl⟩ := List.mem_map.1 hd; exact ⟨_, Board.lexes (hw o ho) 0 _⟩)
    (fun d hd => by obtain ⟨o, ho, rfl⟩ := List.mem_map.1 hd; cases enc <;> rfl) hu hl hs hc (p := p) (fs := fs) hr
    (fun d hd => by obtain ⟨o, ho, rfl⟩ := List.mem_map.1 hd; exact hok o ho)
    (fun d hd s hs => by obtain ⟨o, ho, rfl⟩ := List.mem_map.1 hd; exact hcr o ho s hs)
    (old := old) (l := l) (by rw [List.map_map]; exact hi) hn o' h
  obtain ⟨i, d, h1, h2, h3⟩ := this
  rw [List.getElem?_map] at h2
  cases ho : os[i]? with
  | none => rw [ho] at h2; cases h2
  | some o =>
    rw [ho] at h2
    cases h2
    exact ⟨i, o, h1, ho, h3⟩
set_option maxRecDepth 100000 in
example := C88_Board_partial [smallBoard] (by simp) (fun o ho => by cases List.mem_singleton.1 ho; exact smallBoard_wf) (Env.simple .latin1 false) (Env.simple .latin1 false) none none
  rfl Codec.latin1_lawful prefixSafe_latin1 (fun _ => rfl) (.str k!"0") k!"a" (FS.two k!"a" k!"b" [1] [2]) rfl
  (fun o ho => by cases List.mem_singleton.1 ho; exact save_ok (.board smallBoard) (Env.simple .latin1 false) k!"a" none (FS.two k!"a" k!"b" [1] [2]) rfl (two_openable _ _ _ _) (by decide +kernel))
  (fun o ho => by cases List.mem_singleton.1 ho; exact (noCR_iff (by decide +kernel)))

/-! ## Violations

Design rules: the rest of a longer file behind a shorter one is read as more rules. -/

/-- The bytes of a text in UTF-8 with the line ends of the platform. -/
def utf8Bytes (env : Env) (s : Str) : Bytes := (env.toLines s).flatMap String.utf8EncodeChar

theorem toLines_append (env : Env) (s t : Str) : env.toLines (s ++ t) = env.toLines s ++ env.toLines t := by
  unfold Env.toLines
  split
  · exact List.flatMap_append
  · rfl

theorem utf8Bytes_append (env : Env) (s t : Str) : utf8Bytes env (s ++ t) = utf8Bytes env s ++ utf8Bytes env t := by
  rw [utf8Bytes, toLines_append, List.flatMap_append]
  rfl

theorem Doc.bytes_utf8 (d : Doc) (env : Env) (s : Str) (h : d.text = .ok s) (hc : d.codec env (some .utf8) = .utf8) :
    d.bytes env (some .utf8) = some (utf8Bytes env s) := by
  unfold Doc.bytes
  rw [h, hc]
  rfl

theorem forSM_append {α : Type} (a b : List α) (f : α → PyM Str) (s t : Str) (h : forSM a f = .ok s) (h' : forSM b f = .ok t) :
    forSM (a ++ b) f = .ok (s ++ t) := by
  induction a generalizing s with
  | nil => cases h; exact h'
  | cons x a ih =>
    obtain ⟨u, hu, h⟩ := bind_ok_split h
    obtain ⟨w, hw, h⟩ := bind_ok_split h
    cases h
    show (f x >>= fun a' => forSM (a ++ b) f >>= fun b => .ok (a' ++ b)) = _
    rw [hu, ih w hw, List.append_assoc]
    rfl

/-- The text of some rules, of more rules, and of both. -/
theorem rules_text (v : Val) (as bs : List Rule) (hv : NumOk v) (ha : ∀ r ∈ as, r.WF) (hb : ∀ r ∈ bs, r.WF) :
    ∃ s, DesignRules.toSexpr { version := v, rules := as } = .ok s ∧
      ∃ e, (∀ cs t, cs ≠ [] → DesignRules.toSexpr { version := v, rules := cs } = .ok t →
        DesignRules.toSexpr { version := v, rules := cs ++ bs } = .ok (t ++ e)) := by
  obtain ⟨s, hs, -⟩ := DesignRules.lx (o := { version := v, rules := as }) ⟨hv, ha⟩ 0 false
  obtain ⟨e0, he, -⟩ := DesignRules.lx (o := { version := v, rules := bs }) ⟨hv, hb⟩ 0 false
  obtain ⟨e, he, -⟩ := bind_ok_split he
  refine ⟨s, hs, e, fun cs t hc ht => ?_⟩
  obtain ⟨w, hw, ht⟩ := bind_ok_split ht
  have h := forSM_append _ _ _ _ _ hw he
  have h1 : cs.isEmpty = false := by cases cs with
    | nil => exact absurd rfl hc
    | cons _ _ => rfl
  have h2 : (cs ++ bs).isEmpty = false := by cases cs with
    | nil => exact absurd rfl hc
    | cons _ _ => rfl
  unfold DesignRules.toSexpr
  dsimp only at h ht ⊢
  rw [h]
  rw [h1] at ht
  rw [h2]
  have ht := Except.ok.inj ht
  rw [← ht]
  simp [bind, Except.bind, pure, Except.pure, endl]

/-- C88 is violated by design rules, even if every process writes everything at once: one process saves the rules `as ++ bs`, another
the rules `cs`, and the texts of `as` and `cs` have the same length. Then the file can end up as the rules `cs ++ bs`, which nobody
saved, and is loaded without an exception. -/
theorem C88_DesignRules_violated (v : Val) (as bs cs : List Rule) (hv : NumOk v) (ha : ∀ r ∈ as, r.WF) (hb : ∀ r ∈ bs, r.WF)
    (hc : ∀ r ∈ cs, r.WF) (hane : as ≠ []) (hcne : cs ≠ []) (env env' : Env) (hone : ∀ b, env.chunks b = [b]) (hf : env.full = none)
    (s t : Str) (hs : DesignRules.toSexpr { version := v, rules := as } = .ok s) (ht : DesignRules.toSexpr { version := v, rules := cs } = .ok t)
    (hlen : (utf8Bytes env s).length = (utf8Bytes env t).length)
    (p : Path) (fs : FS) (hw : Openable fs p) (old : Bytes) (fs' : FS) (hr : fs'.canRead p = true)
    (hcr : ∀ s, DesignRules.toSexpr { version := v, rules := cs ++ bs } = .ok s → '\r' ∉ s) :
    ∃ l, Interleaves
        [(DesignRules.toFile env { version := v, rules := as ++ bs } (some p) (some .utf8) fs).ops,
         (DesignRules.toFile env { version := v, rules := cs } (some p) (some .utf8) fs).ops] l ∧
      (HasContent fs' p (sharedRun old l).content → ∃ o', DesignRules.fromFile env' p (some .utf8) fs' = (.ok o', fs') ∧
        PyEq.eq { version := v, rules := cs ++ bs, filePath := some p } o') := by
  obtain ⟨s', hs', e, he⟩ := rules_text v as bs hv ha hb
  cases hs.symm.trans hs'
  have h1 := he as s hane hs
  have h2 := he cs t hcne ht
  have hx := (Doc.designRules { version := v, rules := as ++ bs }).bytes_utf8 env _ h1 rfl
  have hy := (Doc.designRules { version := v, rules := cs }).bytes_utf8 env _ ht rfl
  have hz := (Doc.designRules { version := v, rules := cs ++ bs }).bytes_utf8 env _ h2 rfl
  have okx := C27_success (.designRules { version := v, rules := as ++ bs }) env (some p) (some .utf8) fs p _ rfl hw hx hf
  have oky := C27_success (.designRules { version := v, rules := cs }) env (some p) (some .utf8) fs p _ rfl hw hy hf
  have okz := C27_success (.designRules { version := v, rules := cs ++ bs }) env (some p) (some .utf8) fs p _ rfl hw hz hf
  obtain ⟨bx, hbx, hopx⟩ := Doc.ops_of _ okx hone
  obtain ⟨bY, hby, hopy⟩ := Doc.ops_of _ oky hone
  cases hx.symm.trans hbx
  cases hy.symm.trans hby
  refine ⟨_, (by rw [show (DesignRules.toFile env { version := v, rules := as ++ bs } (some p) (some .utf8) fs).ops = _ from hopx,
    show (DesignRules.toFile env { version := v, rules := cs } (some p) (some .utf8) fs).ops = _ from hopy]; exact interleaves_two _ _), fun hn => ?_⟩
  have hcont : (sharedRun old [(0, .opens), (1, .opens), (0, .writes (utf8Bytes env (s ++ e))), (1, .writes (utf8Bytes env t))]).content =
      utf8Bytes env (t ++ e) := by
    simp only [sharedRun, List.foldl_cons, List.foldl_nil, Shared.step]
    simp only [Nat.zero_ne_one, Nat.one_ne_zero, if_true, if_false]
    rw [overwrite_start, overwrite_start, utf8Bytes_append, utf8Bytes_append, ← hlen]
    simp
  refine C30_DesignRules { version := v, rules := cs ++ bs } ⟨hv, fun r h => (List.mem_append.1 h).elim (hc r) (hb r)⟩ env env' p (some .utf8) (some .utf8)
    fs fs' okz Codec.utf8_lawful rfl ?_ hr hcr
  obtain ⟨p', b2, hp', hb2, hn2⟩ := C27_content _ env (some p) (some .utf8) fs okz
  cases Option.some.inj hp'
  cases hz.symm.trans hb2
  exact hn.trans ((congrArg (fun b => some (Node.file b)) hcont).trans hn2.symm)

/-! All kinds of files, if the bytes reach the file in portions: parts of both files are mixed. -/

/-- Two processes that write in two portions each: the first portions in one order, the second portions in the other. -/
theorem interleaves_portions (a a' b b' : Bytes) :
    Interleaves [[.opens, .writes a, .writes a'], [.opens, .writes b, .writes b']]
      [(0, .opens), (1, .opens), (0, .writes a), (1, .writes b), (1, .writes b'), (0, .writes a')] := by
  intro i
  match i with
  | 0 => rfl
  | 1 => rfl
  | i + 2 => simp

/-- The bytes of two files of the same length that are written in two portions: the file can end up with the first portion of one and
the second portion of the other. -/
theorem portions_mixed (old a a' b b' : Bytes) (h : a.length = b.length) (h' : a'.length = b'.length) :
    (sharedRun old [(0, .opens), (1, .opens), (0, .writes a), (1, .writes b), (1, .writes b'), (0, .writes a')]).content = b ++ a' := by
  simp only [sharedRun, List.foldl_cons, List.foldl_nil, Shared.step]
  simp only [Nat.zero_ne_one, Nat.one_ne_zero, if_true, if_false]
  simp [overwrite, h, h']

/-- The steps of a file that is written in two portions. -/
theorem Doc.ops_portions (d : Doc) {env : Env} {fp : Option Path} {enc : Option Codec} {fs : FS} (hok : (d.toFile env fp enc fs).outcome = .ok ())
    (k : Nat) (hc : ∀ b, env.chunks b = [b.take k, b.drop k]) :
    ∃ b, d.bytes env enc = some b ∧ (d.toFile env fp enc fs).ops = [.opens, .writes (b.take k), .writes (b.drop k)] := by
  rcases d.toFile_shape env fp enc fs with ⟨-, ⟨e, h'⟩, -⟩ | ⟨p, -, -, ⟨e, -, h'⟩ | ⟨b, n, -, -, -, h'⟩ | ⟨b, hb, -, h'⟩⟩
  · rw [hok] at h'; cases h'
  · rw [h'] at hok; cases hok
  · rw [h'] at hok; cases hok
  · refine ⟨b, hb, ?_⟩
    rw [h', Attempt.ops, hc]
    rfl

/-- C88 is violated by every kind of file if the bytes reach the file in portions: if the texts of three files are `a ++ a'`, `b ++ b'`
and `b ++ a'`, and the first two are saved at the same time, the file can end up with the content of the third, which nobody saved. -/
theorem C88_portions_violated (x y z : Doc) (env : Env) (a a' b b' : Str) (hx : x.text = .ok (a ++ a')) (hy : y.text = .ok (b ++ b'))
    (hz : z.text = .ok (b ++ a')) (ex : x.codec env (some .utf8) = .utf8) (ey : y.codec env (some .utf8) = .utf8)
    (ez : z.codec env (some .utf8) = .utf8) (h1 : (utf8Bytes env a).length = (utf8Bytes env b).length)
    (h2 : (utf8Bytes env a').length = (utf8Bytes env b').length)
    (hc : ∀ s, env.chunks s = [s.take (utf8Bytes env a).length, s.drop (utf8Bytes env a).length])
    (hf : env.full = none) (p : Path) (fs : FS) (hw : Openable fs p) (old : Bytes) :
    (z.toFile env (some p) (some .utf8) fs).outcome = .ok () ∧
    ∃ l, Interleaves [(x.toFile env (some p) (some .utf8) fs).ops, (y.toFile env (some p) (some .utf8) fs).ops] l ∧
      HasContent ((z.toFile env (some p) (some .utf8) fs).final fs) p (sharedRun old l).content := by
  have hx := x.bytes_utf8 env _ hx ex
  have hy := y.bytes_utf8 env _ hy ey
  have hz' := z.bytes_utf8 env _ hz ez
  have okx := C27_success x env (some p) (some .utf8) fs p _ rfl hw hx hf
  have oky := C27_success y env (some p) (some .utf8) fs p _ rfl hw hy hf
  have okz := C27_success z env (some p) (some .utf8) fs p _ rfl hw hz' hf
  obtain ⟨bx, hbx, hopx⟩ := Doc.ops_portions _ okx _ hc
  obtain ⟨bY, hby, hopy⟩ := Doc.ops_portions _ oky _ hc
  cases hx.symm.trans hbx
  cases hy.symm.trans hby
  rw [utf8Bytes_append, List.take_left, List.drop_left] at hopx
  rw [utf8Bytes_append, h1, List.take_left, List.drop_left] at hopy
  refine ⟨okz, _, (by rw [hopx, hopy]; exact interleaves_portions _ _ _ _), ?_⟩
  obtain ⟨p', b2, hp', hb2, hn2⟩ := C27_content _ env (some p) (some .utf8) fs okz
  cases Option.some.inj hp'
  cases hz'.symm.trans hb2
  refine hn2.trans (congrArg (fun b => some (Node.file b)) ?_)
  rw [portions_mixed _ _ _ _ _ h1 h2, utf8Bytes_append]

/-- The text of the first entries of a library table, as far as it does not depend on the others. -/
def tableStart (type : Val) (libs : List Library) : Str := '(' :: (type.pyStr ++ '\n' :: forS libs fun lib => lib.toSexpr)

/-- The text of the last entries. -/
def tableEnd (libs : List Library) : Str := (forS libs fun lib => lib.toSexpr) ++ k!")\n"

theorem table_text (type : Val) (as bs : List Library) :
    LibTable.toSexpr { type := type, libs := as ++ bs } = tableStart type as ++ tableEnd bs := by
  simp [LibTable.toSexpr, tableStart, tableEnd, forS_append, indents, endl]

/-- C88 is violated by library tables if the bytes reach the file in portions: one process saves the entries `as ++ bs`, another the
entries `cs ++ ds`, with texts of the same lengths. Then the file can end up as the entries `cs ++ bs`, which nobody saved, and is
loaded without an exception. -/
theorem C88_LibTable_violated (type : Val) (as bs cs ds : List Library)
    (hz : LibTable.WF { type := type, libs := cs ++ bs }) (env env' : Env)
    (h1 : (utf8Bytes env (tableStart type as)).length = (utf8Bytes env (tableStart type cs)).length)
    (h2 : (utf8Bytes env (tableEnd bs)).length = (utf8Bytes env (tableEnd ds)).length)
    (hc : ∀ b, env.chunks b = [b.take (utf8Bytes env (tableStart type as)).length, b.drop (utf8Bytes env (tableStart type as)).length])
    (hf : env.full = none) (p : Path) (fs : FS) (hw : Openable fs p) (old : Bytes) (fs' : FS) (hr : fs'.canRead p = true)
    (hcr : '\r' ∉ LibTable.toSexpr { type := type, libs := cs ++ bs }) :
    ∃ l, Interleaves
        [(LibTable.toFile env { type := type, libs := as ++ bs } (some p) (some .utf8) fs).ops,
         (LibTable.toFile env { type := type, libs := cs ++ ds } (some p) (some .utf8) fs).ops] l ∧
      (HasContent fs' p (sharedRun old l).content → ∃ o', LibTable.fromFile env' p (some .utf8) fs' = (.ok o', fs') ∧
        PyEq.eq { type := type, libs := cs ++ bs, filePath := some p } o') := by
  obtain ⟨okz, l, hl, hc'⟩ := C88_portions_violated (.libTable { type := type, libs := as ++ bs }) (.libTable { type := type, libs := cs ++ ds })
    (.libTable { type := type, libs := cs ++ bs }) env _ _ _ _ (congrArg Except.ok (table_text type as bs)) (congrArg Except.ok (table_text type cs ds))
    (congrArg Except.ok (table_text type cs bs)) rfl rfl rfl h1 h2 hc hf p fs hw old
  exact ⟨l, hl, fun hn => C30_LibTable { type := type, libs := cs ++ bs } hz env env' p (some .utf8) (some .utf8) fs fs' okz Codec.utf8_lawful rfl
    (hn.trans hc'.symm) hr hcr⟩

/-! ## Examples -/

def raceTable (name : Str) : LibTable := { libs := [{ name := .str name, uri := .str k!"u" }] }
theorem raceTable_wf (name : Str) (h : name.getLast? ≠ some '\\') : (raceTable name).WF :=
  { type := .inl rfl,
    libs := fun v hv => by
      cases List.mem_singleton.1 hv
      exact { name := h, type := by textOk, uri := by textOk, options := by textOk, description := by textOk } }

def raceRule (name : Str) : Rule := { name := .str name, condition := .str k!"x" }
theorem raceRule_wf (name : Str) (h : name.getLast? ≠ some '\\') : (raceRule name).WF :=
  { name := h,
    layer := (by optOk),
    constraints := (by listOk),
    condition := (by textOk),
    severity := (by optOk) }

/-- A platform where the bytes reach the file in two portions. -/
def Env.twoPortions (k : Nat) : Env := ⟨.utf8, false, fun b => [b.take k, b.drop k], by simp, none⟩

/-- Two processes save different tables; both open the file, then both write. The second table is not shorter: the file is loaded, and
it is the second table. -/
theorem race_content : (sharedRun [1, 2] [(0, .opens), (1, .opens), (0, .writes (utf8Bytes (Env.simple .utf8 false) (raceTable k!"a").toSexpr)),
      (1, .writes (utf8Bytes (Env.simple .utf8 false) (raceTable k!"bc").toSexpr))]).content =
    utf8Bytes (Env.simple .utf8 false) (raceTable k!"bc").toSexpr := by
  decide +kernel

set_option maxRecDepth 100000 in
example : ∃ fs' o', HasContent fs' k!"a" (utf8Bytes (Env.simple .utf8 false) (raceTable k!"bc").toSexpr) ∧
    (LibTable.fromFile (Env.simple .utf8 false) k!"a" none fs').1 = .ok o' ∧
    ∃ i o, some 1 = some i ∧ [raceTable k!"a", raceTable k!"bc"][i]? = some o ∧
      (LibTable.fromFile (Env.simple .utf8 false) k!"a" none
        ((o.toFile (Env.simple .utf8 false) (some k!"a") none (FS.two k!"a" k!"b" [1] [2])).final (FS.two k!"a" k!"b" [1] [2]))).1 = .ok o' := by
  have ok : ∀ n, n = k!"a" ∨ n = k!"bc" →
      ((raceTable n).toFile (Env.simple .utf8 false) (some k!"a") none (FS.two k!"a" k!"b" [1] [2])).outcome = .ok () := by
    rintro n (rfl | rfl) <;>
    exact save_ok (.libTable _) (Env.simple .utf8 false) k!"a" none (FS.two k!"a" k!"b" [1] [2]) rfl (two_openable _ _ _ _) (by decide +kernel)
  obtain ⟨o', h1, -⟩ := C30_LibTable (raceTable k!"bc") (raceTable_wf _ (by decide)) (Env.simple .utf8 false) (Env.simple .utf8 false) k!"a" none none
    (FS.two k!"a" k!"b" [1] [2]) _ (ok _ (.inr rfl)) Codec.utf8_lawful rfl rfl rfl (by decide +kernel)
  have hn : HasContent (((raceTable k!"bc").toFile (Env.simple .utf8 false) (some k!"a") none (FS.two k!"a" k!"b" [1] [2])).final (FS.two k!"a" k!"b" [1] [2]))
      k!"a" (utf8Bytes (Env.simple .utf8 false) (raceTable k!"bc").toSexpr) := by
    obtain ⟨p', b, hp', hb, hn⟩ := C27_content (.libTable (raceTable k!"bc")) (Env.simple .utf8 false) (some k!"a") none (FS.two k!"a" k!"b" [1] [2]) (ok _ (.inr rfl))
    cases Option.some.inj hp'
    cases Option.some.inj hb
    exact hn
  refine ⟨_, o', hn, congrArg Prod.fst h1, ?_⟩
  refine C88_LibTable_partial [raceTable k!"a", raceTable k!"bc"] (by simp) ?_ (Env.simple .utf8 false) (Env.simple .utf8 false) none none
    rfl Codec.utf8_lawful prefixSafe_utf8 (fun _ => rfl) k!"a" (FS.two k!"a" k!"b" [1] [2]) rfl ?_ ?_ [1, 2] _ (interleaves_two _ _) _
    (hn.trans (congrArg (fun b => some (Node.file b)) race_content.symm)) o' (congrArg Prod.fst h1)
  · simp only [List.forall_mem_cons]
    exact ⟨raceTable_wf _ (by decide), raceTable_wf _ (by decide), fun _ h => absurd h List.not_mem_nil⟩
  · simp only [List.forall_mem_cons]
    exact ⟨ok _ (.inl rfl), ok _ (.inr rfl), fun _ h => absurd h List.not_mem_nil⟩
  · simp only [List.forall_mem_cons]
    exact ⟨by decide +kernel, by decide +kernel, fun _ h => absurd h List.not_mem_nil⟩

set_option maxRecDepth 100000 in
example := C88_DesignRules_violated (.int 1) [raceRule k!"a"] [raceRule k!"b"] [raceRule k!"c"] (ok_int (by decide))
  (fun r h => by cases List.mem_singleton.1 h; exact raceRule_wf _ (by decide)) (fun r h => by cases List.mem_singleton.1 h; exact raceRule_wf _ (by decide))
  (fun r h => by cases List.mem_singleton.1 h; exact raceRule_wf _ (by decide)) (by simp) (by simp) (Env.simple .utf8 false) (Env.simple .utf8 false)
  (fun _ => rfl) rfl _ _ rfl rfl (by decide +kernel) k!"a" (FS.two k!"a" k!"b" [1] [2]) (two_openable _ _ _ _) [1]
  (FS.two k!"a" k!"b" [1] [2]) rfl (noCR_iff (by decide +kernel))

set_option maxRecDepth 100000 in
example := C88_LibTable_violated (.str k!"sym_lib_table") (raceTable k!"a").libs (raceTable k!"b").libs (raceTable k!"c").libs (raceTable k!"d").libs
  ⟨.inl rfl, fun v h => (List.mem_append.1 h).elim ((raceTable_wf k!"c" (by decide)).libs v) ((raceTable_wf k!"b" (by decide)).libs v)⟩
  (Env.twoPortions (utf8Bytes (Env.simple .utf8 false) (tableStart (.str k!"sym_lib_table") (raceTable k!"a").libs)).length) (Env.simple .utf8 false)
  (by decide +kernel) (by decide +kernel) (fun _ => rfl) rfl k!"a" (FS.two k!"a" k!"b" [1] [2]) (two_openable _ _ _ _) [1]
  (FS.two k!"a" k!"b" [1] [2]) rfl (by decide +kernel)

end Kiutils
