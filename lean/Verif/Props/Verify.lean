import Verif.Props.Sigops
import Verif.Lemmas.NoMultisig
/-!
# C52: connecting an input to its previous output equals the BIP16/BIP141/BIP341 verification algorithm
-/
namespace Verif
open Verif.Machine (Env Val Err Res St Rel Within Small)
open Verif.Spec Verif.Spec.Script

/-- What a spend must satisfy: parsed scripts, elements and scripts of a size that can exist in memory, standard hash
sizes, a signature hash that is defined for every legacy subscript (indexes are checked before), and BIP341 and BIP342
active together. -/
structure Spend.OK (s : Spend) : Prop where
  ops : OpsOK s.ops
  opsSize : (opsData s.ops).length < 2 ^ 63
  prevout : OpsOK s.prevout
  prevoutSize : (opsData s.prevout).length < 2 ^ 63
  witness : ((Witness.ofStack s.witness).toData true).length < 2 ^ 63
  rmd160 : ∀ b, (s.rmd160 b).length = 20
  sha1 : ∀ b, (s.sha1 b).length = 20
  sha256 : ∀ b, (s.sha256 b).length = 32
  hash160 : ∀ b, (s.hash160 b).length = 20
  hash256 : ∀ b, (s.hash256 b).length = 32
  total : ∀ v sub f, (s.sighash v sub f).isSome = true
  tap : s.flags.bip341 = true → s.flags.bip342 = true

/-- The verdict `r` is `b`, except that the code may stop at an undecodable multisig signature under BIP66, in a spend that
uses CHECKMULTISIG other than at the end of a script. -/
def Agrees (s : Spend) (r : Option Res) (b : Bool) : Prop :=
  ∃ x, r = some x ∧ match x with
    | none => b = true
    | some err => b = false ∨ (err = .op_check_multisig_decode_signature ∧ s.flags.bip66 = true ∧ ¬ s.Ordinary)

theorem Agrees.fail {s : Spend} (e : Err) : Agrees s (some (some e)) false := ⟨_, rfl, .inl rfl⟩
theorem Agrees.ok {s : Spend} : Agrees s (some none) true := ⟨_, rfl, rfl⟩

variable {s : Spend}

theorem mem_le_sum {l : List Nat} {x : Nat} (h : x ∈ l) : x ≤ l.sum := by
  induction l with
  | nil => cases h
  | cons y ys ih =>
    rw [List.sum_cons]
    rcases List.mem_cons.1 h with rfl | h
    · omega
    · have := ih h; omega

theorem witness_element (h : s.OK) {w : Bytes} (hw : w ∈ s.witness) : w.length < 2 ^ 63 := by
  have := h.witness
  unfold Witness.toData at this
  rw [List.length_append, List.length_flatMap] at this
  have h2 : ((fun e => (writeVariable e.length ++ e).length) w) ≤ (List.map (fun e => (writeVariable e.length ++ e).length) s.witness).sum :=
    mem_le_sum (List.mem_map_of_mem hw)
  simp only [List.length_append] at h2
  have h3 : (Witness.ofStack s.witness).stack = s.witness := rfl
  rw [h3] at this
  simp only [List.length_append] at this
  omega

theorem legacy_ok (h : s.OK) (ops : List Op) : (s.legacyEnv ops).OK :=
  ⟨⟨h.rmd160, h.sha1, h.sha256, h.hash160, h.hash256⟩, fun _ => h.total false⟩
theorem segwit_ok (h : s.OK) (ops : List Op) (st : List Bytes) : (s.segwitEnv ops st).OK :=
  ⟨⟨h.rmd160, h.sha1, h.sha256, h.hash160, h.hash256⟩, fun _ => h.total true⟩
theorem taproot_ok (h : s.OK) (ops : List Op) (st : List Bytes) (leaf : Option Bytes) : (s.taprootEnv ops st leaf).OK :=
  ⟨⟨h.rmd160, h.sha1, h.sha256, h.hash160, h.hash256⟩, fun _ => h.total false⟩

/-- Running a program and continuing. -/
theorem runThen_agrees {e : Env} (he : e.OK) (hops : OpsOK e.ops) (hl : (opsData e.ops).length < 2 ^ 63)
    (h66 : e.flags.bip66 = s.flags.bip66) (st : List Val) (bud b : Nat) (hb : e.flags.bip342 = true → bud = b + 1)
    (k : St (List Val) → Option Res) (onErr : Err → Res) (f : State → Bool) (onReserved : Bool)
    (hord : e.flags.bip342 = false → s.Ordinary →
      NoMultisig e.ops ∨ (LastMultisig e.ops ∧ ∀ t : State, t.stack.head? = some [] → f t = false))
    (herr : ∀ x, x ≠ .prevalid_script → onErr x = some x)
    (hres : match onErr .prevalid_script with | none => onReserved = true | some _ => onReserved = false)
    (hk : ∀ s' t', Rel e s' t' → eval e (start (st.map Val.toChunk) b) = .done t' →
      (Within { primary := st, budget := bud } → Within s') → Agrees s (k s') (f t')) :
    Agrees s (runThen e st bud k onErr)
      (match eval e (start (st.map Val.toChunk) b) with | .done t => f t | .reserved => onReserved | .fail => false) := by
  have hr : Rel e { primary := st, budget := bud } (start (st.map Val.toChunk) b) :=
    ⟨rfl, rfl, trivial, rfl, rfl, rfl, fun hh => by simp [start, hb hh], fun _ h => by simp at h⟩
  obtain ⟨r, s', h1, h2⟩ := Machine.run_refines he hops (by omega) _ _ hr rfl rfl
  unfold runThen
  rw [h1]
  match r, h2 with
  | none, ⟨t', h3, h4, _, h5⟩ =>
    simp only
    rw [h3]
    exact hk s' t' h4 h3 h5
  | some err, h2 =>
    simp only
    by_cases hp : err = .prevalid_script
    · subst hp
      have h2' : eval e (start (st.map Val.toChunk) b) = .reserved := h2
      rw [h2']
      simp only
      cases ho : onErr .prevalid_script with
      | none => rw [ho] at hres; exact ⟨none, rfl, hres⟩
      | some x => rw [ho] at hres; exact ⟨some x, rfl, .inl hres⟩
    · have h2' : eval e (start (st.map Val.toChunk) b) = .fail ∨ Machine.Excused e err := by
        cases err <;> first | exact absurd rfl hp | exact h2
      rw [herr err hp]
      rcases h2' with h3 | ⟨rfl, h4, h5⟩
      · rw [h3]; exact .fail _
      · by_cases ho : s.Ordinary
        · refine ⟨_, rfl, .inl ?_⟩
          cases hev : eval e (start (st.map Val.toChunk) b) with
          | fail => rfl
          | reserved =>
            exfalso
            unfold eval at hev
            rw [h5] at hev
            simp only [Bool.false_and, Bool.false_eq_true, if_false] at hev
            split_ifs at hev
            split at hev
            · cases hev
            · split_ifs at hev
          | done t =>
            simp only
            have hlast : LastMultisig e.ops := by
              rcases hord h5 ho with hn | hn
              · exact fun o hm => hn o (List.dropLast_subset _ hm)
              · exact hn.1
            obtain ⟨k1, k2⟩ := run_decode he hops _ _ _ _ hr rfl hlast h1 hev
            rcases hord h5 ho with hn | hn
            · exact absurd hn k1
            · exact hn.2 t k2
        · exact ⟨_, rfl, .inr ⟨rfl, h66 ▸ h4, ho⟩⟩

theorem testTrue_agrees {e : Env} {s' : St (List Val)} {t : State} (hr : Rel e s' t) (clean : Bool) (k : Option Res) (b : Bool)
    (hk : (if clean then acceptsClean t.stack else accepts t.stack) = true → Agrees s k b) :
    Agrees s (testTrue clean s' k) ((if clean then acceptsClean t.stack else accepts t.stack) && b) := by
  have hst := hr.stack
  unfold testTrue Machine.isTrue
  have hit : ∀ v : Val, v.toBool = truthy v.toChunk := Machine.toBool_eq
  cases hp : s'.primary with
  | nil =>
    rw [hp] at hst
    have : t.stack = [] := hst.symm
    have h0 : (do
        let n ← Machine.stackSize
        if (!clean || n == 1) && !(n == 0) then Machine.peekBool else return false : Machine.M (List Val) Bool) s' = some (false, s') := by
      show (if (!clean || s'.primary.length == 1) && !(s'.primary.length == 0) then Machine.peekBool else return false : Machine.M (List Val) Bool) s' = _
      rw [hp]; simp; rfl
    rw [h0, this]
    cases clean <;> exact .fail _
  | cons v rest =>
    rw [hp] at hst
    have hts : t.stack = v.toChunk :: rest.map Val.toChunk := hst.symm
    have hval : ∀ (c : Bool), (c = true) → (do
        let n ← Machine.stackSize
        if (!clean || n == 1) && !(n == 0) then Machine.peekBool else return false : Machine.M (List Val) Bool) s' =
        some (if (!clean || rest.length == 0) then truthy v.toChunk else false, s') := by
      intro _ _
      show (if (!clean || s'.primary.length == 1) && !(s'.primary.length == 0) then Machine.peekBool else return false : Machine.M (List Val) Bool) s' = _
      have e1 : (s'.primary.length == 0) = false := by rw [hp]; simp
      have e2 : (s'.primary.length == 1) = (rest.length == 0) := by rw [hp]; simp
      rw [e1, e2]
      simp only [Bool.not_false, Bool.and_true]
      cases hc : (!clean || rest.length == 0)
      · simp; rfl
      · simp only [if_true]
        rw [← hit]
        show (Machine.peekBool : Machine.M (List Val) Bool) s' = some (v.toBool, s')
        unfold Machine.peekBool Machine.top
        have : Machine.StackImpl.top s'.primary = some v := by rw [hp]; rfl
        show ((Machine.StackImpl.top s'.primary).map fun v => (v, s')).bind _ = _
        rw [this]; rfl
    rw [hval true rfl]
    have hacc : (if clean then acceptsClean t.stack else accepts t.stack) =
        (if (!clean || rest.length == 0) then truthy v.toChunk else false) := by
      rw [hts]
      cases clean
      · simp [accepts]
      · cases rest with
        | nil => simp [acceptsClean]
        | cons x xs => simp [acceptsClean]
    rw [hacc] at hk ⊢
    cases hv : (if (!clean || rest.length == 0) then truthy v.toChunk else false)
    · exact .fail _
    · simpa using hk hv

/-! ### Version 0 -/

theorem project_chunks (st : List Bytes) : (project st).map Val.toChunk = st.reverse := by
  unfold project
  rw [← List.map_reverse, List.map_map]
  conv => rhs; rw [← List.map_id st.reverse]
  rfl

theorem keyhash_parse {p : Bytes} (h : p.length = 20) : parseOps ([0x76, 0xa9, 0x14] ++ p ++ [0x88, 0xac]) = toPayKeyHash p := by
  have h1 : opsData (toPayKeyHash p) = [0x76, 0xa9, 0x14] ++ p ++ [0x88, 0xac] := by
    simp [toPayKeyHash, opsData, Op.toData, h, Machine.opcodeFromSize]
  have h2 : OpsOK (toPayKeyHash p) := by
    apply Machine.opsOK_of
    intro o ho
    simp only [toPayKeyHash, List.mem_cons, List.not_mem_nil, or_false] at ho
    rcases ho with rfl | rfl | rfl | rfl | rfl
    · exact plain_consistent _ (by decide)
    · exact plain_consistent _ (by decide)
    · rw [opcodeFromSize_small (by omega)]; exact direct_consistent p (by omega)
    · exact plain_consistent _ (by decide)
    · exact plain_consistent _ (by decide)
  rw [← h1]
  exact parseOps_of h2 (by rw [h1]; simp [h])

theorem keyhash_ok {p : Bytes} (h : p.length = 20) : OpsOK (toPayKeyHash p) ∧ (opsData (toPayKeyHash p)).length < 2 ^ 63 := by
  rw [← keyhash_parse h]
  have hl : ([0x76, 0xa9, 0x14] ++ p ++ [0x88, 0xac] : Bytes).length < 2 ^ 63 := by simp [h]
  exact ⟨parseOps_ok hl, by rw [parseOps_data hl]; exact hl⟩

theorem accepts_false {t : State} (h : t.stack.head? = some []) : accepts t.stack = false ∧ acceptsClean t.stack = false := by
  cases hs : t.stack with
  | nil => rw [hs] at h; cases h
  | cons a r =>
    rw [hs] at h
    cases h
    refine ⟨rfl, ?_⟩
    cases r <;> rfl

theorem keyhash_noMultisig (p : Bytes) (h : p.length = 20) : NoMultisig (toPayKeyHash p) := by
  intro o ho
  simp only [toPayKeyHash, List.mem_cons, List.not_mem_nil, or_false] at ho
  rcases ho with rfl | rfl | rfl | rfl | rfl
  · decide
  · decide
  · simp only [h]; decide
  · decide
  · decide

theorem segwit_run (h : s.OK) (ops : List Op) (hm : s.Ordinary → LastMultisig ops) (hops : OpsOK ops) (hl : (opsData ops).length < 2 ^ 63) (stack : List Bytes) :
    Agrees s (runThen (s.segwitEnv ops stack) (project stack) 0 (fun t => testTrue true t (some none)) some)
      (match eval (s.segwitEnv ops stack) (start stack.reverse 0) with | .done t => acceptsClean t.stack | _ => false) := by
  have := runThen_agrees (s := s) (segwit_ok h ops stack) hops hl rfl (project stack) 0 0 (by intro hh; cases hh)
    (fun t => testTrue true t (some none)) some (fun t => acceptsClean t.stack && true) false
    (fun _ ho => .inr ⟨hm ho, fun t ht => by rw [(accepts_false ht).2]; rfl⟩) (fun _ _ => rfl) rfl
    (fun s' t' hr _ _ => testTrue_agrees hr true (some none) true (fun _ => .ok))
  rw [project_chunks] at this
  simp only [Bool.and_true] at this
  convert this using 2
  cases eval (s.segwitEnv ops stack) (start stack.reverse 0) <;> rfl

theorem getLast_reverse {α : Type} (l : List α) : l.getLast? = l.reverse.head? := by simp
theorem dropLast_reverse {α : Type} {l : List α} {a : α} {r : List α} (h : l.reverse = a :: r) :
    l.getLast? = some a ∧ l.dropLast = r.reverse := by
  have : l = r.reverse ++ [a] := by rw [← List.reverse_reverse l, h]; simp
  rw [this]; simp

theorem segwit_agrees (h : s.OK) {program : List Op}
    (hm : ∀ p w, s.Ordinary → IsWitnessProgram (opsData program) 0 p → p.length = 32 → s.witness.getLast? = some w → LastMultisig (parseOps w)) (hp : OpsOK program) (hpl : (opsData program).length < 2 ^ 63) {p : Bytes}
    (hw : IsWitnessProgram (opsData program) 0 p) (embedded : Bool) :
    Agrees s (connectWitness s program embedded) (segwit s p) := by
  obtain ⟨hv, hpr⟩ := version_of_program hp hpl hw
  unfold connectWitness extractSegwit segwit
  rw [hv, hpr]
  simp only [versionOf, if_true]
  by_cases h20 : p.length = 20
  · simp only [h20, if_true]
    by_cases h2 : s.witness.length = 2
    · simp only [h2, if_true, decide_true, Bool.true_and]
      have := keyhash_ok h20
      rw [keyhash_parse h20]
      exact segwit_run h _ (fun _ o ho => keyhash_noMultisig p h20 o (List.dropLast_subset _ ho)) this.1 this.2 _
    · simp only [h2, if_false, decide_false, Bool.false_and]; exact .fail _
  · simp only [h20, if_false]
    by_cases h32 : p.length = 32
    · simp only [h32, if_true]
      cases hr : s.witness.reverse with
      | nil =>
        have : s.witness = [] := by simpa using hr
        rw [this]; exact .fail _
      | cons w rest =>
        obtain ⟨h3, h4⟩ := dropLast_reverse hr
        have hwl := witness_element h (List.mem_of_getLast? h3)
        rw [h3, h4]
        simp only
        rw [parseOps_data hwl]
        by_cases hh : p = s.sha256 w
        · simp only [hh.symm, if_true, decide_true, Bool.true_and]
          exact segwit_run h _ (fun ho => hm p w ho hw h32 h3) (parseOps_ok hwl) (by rw [parseOps_data hwl]; exact hwl) _
        · rw [if_neg hh, decide_eq_false (fun hc => hh hc.symm)]; exact .fail _
    · simp only [h32, if_false]; exact .fail _

/-! ### Version 1 -/

theorem lexLess_eq : ∀ a b : Bytes, lexLess a b = decide (a < b) := by
  intro a
  induction a with
  | nil => intro b; cases b <;> simp [lexLess]
  | cons x xs ih =>
    intro b
    cases b with
    | nil => simp [lexLess]
    | cons y ys =>
      unfold lexLess
      rw [ih]
      by_cases h1 : x < y
      · simp [h1, List.cons_lt_cons_iff]
      · by_cases h2 : y < x
        · have hne : x ≠ y := by rintro rfl; exact h1 h2
          simp [h1, h2, List.cons_lt_cons_iff, hne]
        · have : x = y := UInt8.le_antisymm (UInt8.not_lt.1 h2) (UInt8.not_lt.1 h1)
          subst this
          simp [h1, List.cons_lt_cons_iff]

theorem tapRootLoop_eq (c : Bytes) : ∀ (n i : Nat) (h : Bytes),
    tapRootLoop s c n i h = tapRoot s h (path n (c.drop (33 + 32 * i))) := by
  intro n
  induction n with
  | zero => intro i h; rfl
  | succ n ih =>
    intro i h
    unfold tapRootLoop path
    rw [ih]
    unfold tapRoot
    rw [List.foldl_cons]
    simp only [List.drop_drop]
    congr 1
    unfold sortedBranch controlKeyAt
    rw [lexLess_eq]
    by_cases hh : h < (c.drop (33 + 32 * i)).take 32 <;> simp [hh]

theorem isControl_eq (c : Bytes) : isControl c =
    (decide (33 ≤ c.length) && decide (c.length ≤ 33 + 32 * 128) && decide ((c.length - 33) % 32 = 0)) := by
  unfold isControl
  rw [Bool.eq_iff_iff]
  simp only [Bool.and_eq_true, Bool.not_eq_true', Bool.or_eq_false_iff, decide_eq_false_iff_not, decide_eq_true_eq, beq_iff_eq]
  omega

theorem dropAnnex_eq (w : List Bytes) : dropAnnex w = withoutAnnex w := by
  unfold dropAnnex withoutAnnex
  cases hr : w.reverse with
  | nil => have : w = [] := by simpa using hr
           subst this; rfl
  | cons a t =>
    obtain ⟨h1, h2⟩ := dropLast_reverse hr
    have hlen : w.length = t.length + 1 := by rw [← List.length_reverse, hr]; rfl
    cases t with
    | nil => rw [if_pos (by simp [hlen])]
    | cons b r =>
      rw [if_neg (by rw [hlen, List.length_cons]; omega), h1, h2]
      simp only
      cases a with
      | nil => simp
      | cons x xs =>
        by_cases hx : x = 0x50
        · subst hx; simp
        · simp only [List.head?_cons, Option.some.injEq, hx, if_false]
          split
          · rename_i heq; cases heq; exact absurd rfl hx
          · rfl

theorem budget_eq (h : s.OK) : s.budget = 50 + ((writeVariable s.witness.length).length +
    (s.witness.map fun e => (writeVariable e.length).length + e.length).sum) + 1 := by
  have hl := h.witness
  have hlen : ((Witness.ofStack s.witness).toData true).length = (writeVariable s.witness.length).length +
      (s.witness.map fun e => (writeVariable e.length).length + e.length).sum := by
    unfold Witness.toData Witness.ofStack
    simp [List.length_flatMap]
  unfold Spend.budget
  rw [Witness.size_ok (w := Witness.ofStack s.witness) rfl true (by omega), hlen, cadd_of_lt (by omega)]
  omega

theorem success_run (hf : s.flags.bip342 = true) (k : St (List Val) → Option Res) :
    Agrees s (runThen (s.taprootEnv successOps [] none) (project []) s.budget k
      (fun e => if e = .prevalid_script then none else some e)) true := by
  have : Machine.run (s.taprootEnv successOps [] none) { primary := project [], budget := s.budget } =
      some (some .prevalid_script, { primary := project [], budget := s.budget }) := by
    have hp : ((s.taprootEnv successOps [] none).flags.bip342 && Machine.isPrevalid (s.taprootEnv successOps [] none).ops) = true := by
      show (s.flags.bip342 && Machine.isPrevalid successOps) = true
      rw [hf]; decide
    unfold Machine.run Machine.initProgram
    simp only [hp, if_true]
    rfl
  unfold runThen
  rw [this]
  exact .ok

/-- The key path: evaluating OP_CHECKSIG on the signature and the output key is the BIP341 signature check. -/
theorem key_path (hf : s.flags.bip342 = true) (sig p : Bytes) (hp : p.length = 32) (b : Nat) (hb : 50 ≤ b) :
    (match eval (s.taprootEnv [{ code := 172 }] [sig, p] none) (start [p, sig] b) with
      | .done t => acceptsClean t.stack | .reserved => true | .fail => false) =
    keyPath s p sig := by
  have hpne : p ≠ [] := by rintro rfl; simp at hp
  have hb' : ¬ (b : Int) < 50 := by omega
  have hflag : (s.taprootEnv [{ code := 172 }] [sig, p] none).flags.bip342 = true := hf
  set e := s.taprootEnv [{ code := 172 }] [sig, p] none with he
  have hops : e.ops = [{ code := 172 }] := rfl
  have hwit : e.witness = some [sig, p] := rfl
  have hchk : checkSchnorr e sig p { stack := [], budget := (b : Int) } =
    keyPath s p sig := by
    unfold checkSchnorr keyPath
    by_cases h64 : sig.length = 64
    · simp only [h64, if_true]
      show (match s.sighashTap none 0 0 with | none => _ | some h => _) = _
      cases s.sighashTap none 0 0 <;> rfl
    · by_cases h65 : sig.length = 65 ∧ sig.getLastD 0 ∈ ([1, 2, 3, 0x81, 0x82, 0x83] : List UInt8)
      · simp only [h64, if_false, if_pos h65]
        show (match s.sighashTap none 0 _ with | none => _ | some h => _) = _
        cases s.sighashTap none 0 (sig.getLastD 0) <;> rfl
      · simp only [h64, if_false, if_neg h65]
  rw [← hchk]
  have hstep : steps e 0 [{ code := 172 }] (start [p, sig] b) =
      (checkTap e sig p { stack := [], budget := (b : Int) }).map (fun r => { r.2 with stack := encodeBool r.1 :: r.2.stack }) := by
    have hcs : checkSig e (start [p, sig] b) = checkTap e sig p { stack := [], budget := (b : Int) } := by
      unfold checkSig start
      simp only [hflag, if_true]
    have hx : execute e 0 { code := 172 } (start [p, sig] b) =
        (checkTap e sig p { stack := [], budget := (b : Int) }).map (fun r => { r.2 with stack := encodeBool r.1 :: r.2.stack }) := by
      show (do let (ok, t) ← checkSig e (start [p, sig] b); return { t with stack := encodeBool ok :: t.stack }) = _
      rw [hcs]
      cases checkTap e sig p { stack := [], budget := (b : Int) } <;> rfl
    unfold steps step
    have hc : counted e { code := 172 } (start [p, sig] b) = start [p, sig] b := by
      unfold counted; simp [hflag]
    simp only [Bool.false_eq_true, if_false, List.length_nil, hc, hflag, Bool.not_true, Bool.false_and]
    rw [if_neg (by decide), if_neg (by decide)]
    have hall : ((start [p, sig] b).exec.all id || (99 ≤ (172 : UInt8).toNat && (172 : UInt8).toNat ≤ 104)) = true := by simp [start]
    rw [if_pos (by simpa using hall), hx]
    unfold checkTap
    rw [if_neg hpne]
    by_cases hs0 : sig = []
    · rw [if_pos hs0]; simp [steps]
    · rw [if_neg hs0]
      simp only [if_neg hb']
      split_ifs
      · rfl
      · simp [steps]
  unfold eval
  rw [hflag, hops, hwit]
  have h1 : ([{ code := 172 }] : List Op).any (fun o => !o.underflow && successCode o.code.toNat) = false := by decide
  rw [h1]
  have h2 : decide ((start [p, sig] b).stack.length > 1000) = false := by simp [start]
  rw [h2, hstep]
  simp only [Bool.and_false, Bool.false_eq_true, if_false, Bool.true_or, Bool.true_and, Bool.not_true, Bool.false_and, Option.getD_some]
  have hbig : ([sig, p].any fun x => decide (x.length > 520)) = decide (sig.length > 520) := by
    simp [hp]
  rw [hbig]
  have hfalse : (sig.length ≠ 64 ∧ sig.length ≠ 65) → checkSchnorr e sig p { stack := [], budget := (b : Int) } = false := by
    intro hh; rw [hchk]; unfold keyPath; rw [if_neg hh.1, if_neg (fun h => hh.2 h.1)]
  by_cases hb520 : sig.length > 520
  · rw [if_pos (by simpa using hb520), hfalse (by omega)]
  · rw [if_neg (by simpa using hb520)]
    unfold checkTap
    rw [if_neg hpne]
    by_cases hs0 : sig = []
    · rw [if_pos hs0, hfalse (by simp [hs0])]
      simp only [Option.map_some]
      rfl
    · simp only [if_neg hs0, if_neg hb', hp, true_and]
      cases checkSchnorr e sig p { stack := [], budget := (b : Int) }
      · rfl
      · simp only [Bool.not_true, Bool.false_eq_true, if_false, Option.map_some]
        rfl

theorem taproot_run (h : s.OK) (hf : s.flags.bip342 = true) (ops : List Op) (hops : OpsOK ops) (hl : (opsData ops).length < 2 ^ 63)
    (stack : List Bytes) (leaf : Option Bytes) (b : Nat) (hb : s.budget = b + 1) :
    Agrees s (runThen (s.taprootEnv ops stack leaf) (project stack) s.budget (fun t => testTrue true t (some none))
        (fun e => if e = .prevalid_script then none else some e))
      (match eval (s.taprootEnv ops stack leaf) (start stack.reverse b) with
        | .done t => acceptsClean t.stack | .reserved => true | .fail => false) := by
  have := runThen_agrees (s := s) (taproot_ok h ops stack leaf) hops hl rfl (project stack) s.budget b (fun _ => hb)
    (fun t => testTrue true t (some none)) (fun e => if e = .prevalid_script then none else some e)
    (fun t => acceptsClean t.stack && true) true (fun hc => by rw [show (s.taprootEnv ops stack leaf).flags.bip342 = s.flags.bip342 from rfl, hf] at hc; cases hc)
    (fun x hx => by simp [hx]) rfl
    (fun s' t' hr _ _ => testTrue_agrees hr true (some none) true (fun _ => .ok))
  rw [project_chunks] at this
  simpa only [Bool.and_true] using this

theorem taproot_agrees (h : s.OK) (h341 : s.flags.bip341 = true) {program : List Op} (hp : OpsOK program)
    (hpl : (opsData program).length < 2 ^ 63) {p : Bytes} (hw : IsWitnessProgram (opsData program) 1 p) :
    Agrees s (connectWitness s program false) (taproot s p) := by
  obtain ⟨hv, hpr⟩ := version_of_program hp hpl hw
  have hf := h.tap h341
  have hbud := budget_eq h
  unfold connectWitness extractTaproot taproot
  rw [hv, hpr, h341]
  simp only [versionOf, one_ne_zero, if_false, if_true, Bool.not_true, Bool.or_false, Bool.false_eq_true]
  by_cases h32 : p.length = 32
  · simp only [h32, if_true]
    rw [dropAnnex_eq]
    have hmem : ∀ w ∈ withoutAnnex s.witness, w ∈ s.witness := by
      intro w hw
      rw [← dropAnnex_eq] at hw
      unfold dropAnnex at hw
      split_ifs at hw
      · exact hw
      · split at hw
        · exact List.dropLast_subset _ hw
        · exact hw
    cases hr : (withoutAnnex s.witness).reverse with
    | nil =>
      have : withoutAnnex s.witness = [] := by simpa using hr
      rw [this]
      exact .fail _
    | cons c rest =>
      obtain ⟨h3, h4⟩ := dropLast_reverse hr
      have hlen : (withoutAnnex s.witness).length = rest.length + 1 := by rw [← List.length_reverse, hr]; rfl
      cases rest with
      | nil =>
        rw [if_neg (by rw [hlen]; simp), if_pos (by rw [hlen]; simp)]
        simp only
        have hst : withoutAnnex s.witness = [c] := by rw [← List.reverse_reverse (withoutAnnex s.witness), hr]; rfl
        rw [hst, ← key_path hf c p h32 _ (by omega : 50 ≤ s.budget - 1)]
        exact taproot_run h hf _ (Machine.opsOK_of _ (by
          intro o ho
          simp only [List.mem_singleton] at ho
          subst ho
          exact plain_consistent _ (by decide))) (by simp [opsData, Op.toData]) ([c] ++ [p]) none (s.budget - 1) (by omega)
      | cons w rest =>
        rw [if_pos (by rw [hlen, List.length_cons]; omega), h3, h4]
        have hrr : ((w :: rest).reverse).reverse = w :: rest := List.reverse_reverse _
        obtain ⟨h5, h6⟩ := dropLast_reverse hrr
        rw [h5, h6]
        simp only
        have hwl : w.length < 2 ^ 63 := witness_element h (hmem w (by
          have : w ∈ (withoutAnnex s.witness).reverse := by rw [hr]; simp
          simpa using this))
        have hd := parseOps_data hwl
        have hleaf : (Script.ofOps (parseOps w)).toData true = writeVariable w.length ++ w := by
          unfold Script.toData Script.serializedSize Script.ofOps
          simp only [if_true, Bool.false_eq_true, if_false]
          rw [opsSize_eq _ (by rw [hd]; omega), hd]
        rw [hleaf, isControl_eq]
        by_cases hctl : (decide (33 ≤ c.length) && decide (c.length ≤ 33 + 32 * 128) && decide ((c.length - 33) % 32 = 0)) = true
        · simp only [hctl, Bool.not_true, Bool.false_eq_true, if_false, Bool.true_and]
          have hvc : ∀ leaf, verifyCommit s c p leaf = s.verifyCommitment ((c.drop 1).take 32) (s.tweakHash ((c.drop 1).take 32)
              (tapRoot s leaf (path ((c.length - 33) / 32) (c.drop 33)))) p (c.headD 0 &&& 1 != 0) := by
            intro leaf
            unfold verifyCommit
            simp only
            rw [tapRootLoop_eq]
            rfl
          have hver : controlVersion c = c.headD 0 &&& 0xfe := rfl
          rw [hvc, hver]
          cases s.verifyCommitment ((c.drop 1).take 32) (s.tweakHash ((c.drop 1).take 32)
              (tapRoot s (s.leafHash (c.headD 0 &&& 0xfe) (writeVariable w.length ++ w)) (path ((c.length - 33) / 32) (c.drop 33)))) p (c.headD 0 &&& 1 != 0)
          · exact .fail _
          · simp only [Bool.not_true, Bool.false_eq_true, if_false, Bool.true_and]
            by_cases hc0 : c.headD 0 &&& 0xfe = 0xc0
            · simp only [hc0, if_true]
              have := taproot_run h hf (parseOps w) (parseOps_ok hwl) (by rw [hd]; exact hwl) rest.reverse
                (some (s.leafHash 0xc0 (writeVariable w.length ++ w))) _ hbud
              rw [List.reverse_reverse] at this
              exact this
            · simp only [hc0, if_false]
              exact success_run hf _
        · simp only [Bool.not_eq_true] at hctl
          simp only [hctl, Bool.not_false, if_true, Bool.false_and]
          exact .fail _
  · simp only [h32, if_false]
    exact success_run hf _

theorem program_agrees (h : s.OK) {ops : List Op}
    (hm : ∀ p w, s.Ordinary → IsWitnessProgram (opsData ops) 0 p → p.length = 32 → s.witness.getLast? = some w → LastMultisig (parseOps w)) (hp : OpsOK ops) (hpl : (opsData ops).length < 2 ^ 63) {v : Nat} {p : Bytes}
    (hw : IsWitnessProgram (opsData ops) v p) (nested : Bool) :
    Agrees s (connectWitness s ops nested) (program s v p nested) := by
  unfold program
  by_cases hv0 : v = 0
  · subst hv0; exact segwit_agrees h hm hp hpl hw nested
  · rw [if_neg hv0]
    have hv := (version_of_program hp hpl hw).1
    by_cases hv1 : v = 1
    · subst hv1
      by_cases hx : s.flags.bip341 = true ∧ nested = false
      · rw [if_pos ⟨rfl, hx⟩]
        obtain ⟨hx, rfl⟩ := hx
        exact taproot_agrees h hx hp hpl hw
      · rw [if_neg (fun hh => hx hh.2)]
        unfold connectWitness
        rw [hv]
        simp only [versionOf, one_ne_zero, if_false, if_true]
        have : (!s.flags.bip341 || nested) = true := by
          cases hb : s.flags.bip341 <;> cases nested <;> simp_all
        simp only [this, if_true]
        exact .ok
    · rw [if_neg (fun hh => hv1 hh.1)]
      unfold connectWitness
      rw [hv]
      simp only [versionOf, hv0, hv1, if_false]
      exact .ok

/-! ### The whole input -/

theorem opsData_nil_iff {ops : List Op} (h : OpsOK ops) : opsData ops = [] ↔ ops = [] := by
  constructor
  · intro hd
    have := ops_length_le h
    rw [hd] at this
    exact List.eq_nil_of_length_eq_zero (by simpa using this)
  · rintro rfl; rfl

theorem step_execute {e : Env} {i : Nat} {op : Op} {t t' : State} (hx : t.exec.all id = true) (h : step e i op t = some t') :
    execute e i op (counted e op t) = some t' := by
  have hc : (counted e op t).exec = t.exec := by unfold counted; split_ifs <;> rfl
  unfold step at h
  simp only [hc, hx, Bool.true_or, if_true] at h
  split_ifs at h
  cases hh : execute e i op (counted e op t) with
  | none => rw [hh] at h; cases h
  | some t2 =>
    rw [hh] at h
    simp only [Option.bind_eq_bind, Option.bind_some] at h
    split_ifs at h
    exact h

theorem eval_done {e : Env} {t t' : State} (h : eval e t = .done t') : steps e 0 e.ops t = some t' := by
  unfold eval at h
  split_ifs at h
  cases hs : steps e 0 e.ops t with
  | none => rw [hs] at h; cases h
  | some t2 => rw [hs] at h; simp only at h; split_ifs at h; cases h; rfl

/-- A successful P2SH output script found an element on the stack. -/
theorem p2sh_needs_element (e : Env) (hops : OpsOK e.ops) (hl : (opsData e.ops).length < 2 ^ 63) (hp : IsP2SH (opsData e.ops))
    (t : State) : eval e (start [] 0) ≠ .done t := by
  intro h
  have hpat := (p2sh_pattern_iff hops hl).2 hp
  have hst := eval_done h
  unfold payScriptHashPattern at hpat
  split at hpat
  · rename_i a b c heq
    simp only [Bool.and_eq_true, beq_iff_eq] at hpat
    rw [heq] at hst
    unfold steps at hst
    cases hs : step e 0 a (start [] 0) with
    | none => rw [hs] at hst; cases hst
    | some t1 =>
      have hx := step_execute rfl hs
      have hc : (counted e a (start [] 0)).stack = [] := by unfold counted; split_ifs <;> rfl
      unfold execute at hx
      rw [hpat.1.1] at hx
      have hx' : onStack (counted e a (start [] 0)) (stackOp e 169 (counted e a (start [] 0)).stack) = some t1 := hx
      rw [hc] at hx'
      cases hx'
  · cases hpat

/-- Evaluating a single push leaves its data. -/
theorem single_push {e : Env} {o : Op} (ho : e.ops = [o]) (hc : o.code.toNat ≤ 78) {t : State}
    (h : eval e (start [] 0) = .done t) : t.stack = [if o.code.toNat = 0 then [] else o.data] := by
  have hst := eval_done h
  rw [ho] at hst
  unfold steps at hst
  cases hs : step e 0 o (start [] 0) with
  | none => rw [hs] at hst; cases hst
  | some t1 =>
    rw [hs] at hst
    have ht : t1 = t := by simpa [steps] using hst
    subst ht
    have hx := step_execute rfl hs
    have hcs : (counted e o (start [] 0)).stack = [] := by unfold counted; split_ifs <;> rfl
    unfold execute at hx
    simp only [hcs] at hx
    by_cases h0 : o.code.toNat = 0
    · rw [if_pos h0] at hx
      cases hx
      rw [if_pos h0]
    · rw [if_neg h0, if_pos hc] at hx
      cases hx
      rw [if_neg h0]

theorem nominal_iff (h : s.OK) {d : Bytes} (hd : d.length ≤ 520) (hne : d ≠ []) (t1 : State)
    (hev : eval (s.legacyEnv s.ops) (start [] 0) = .done t1) (rest : List Bytes) (htop : t1.stack = d :: rest) :
    nominalPushPattern s.ops = true ↔ opsData s.ops = pushBytes d := by
  have hnz : d.length ≠ 0 := fun hh => hne (List.eq_nil_of_length_eq_zero hh)
  constructor
  · intro hn
    unfold nominalPushPattern at hn
    split at hn
    · rename_i o heq
      simp only [Op.isNominalPush, beq_iff_eq] at hn
      have hcons := (h.ops).consistent_of_code o (by rw [heq]; simp)
      have hle : o.code.toNat ≤ 78 := by
        rw [hn]; unfold Machine.opcodeFromSize; split_ifs
        · simp; omega
        · decide
        · decide
        · decide
      have hc := hcons (by intro hh; rw [hh] at hle; simp at hle)
      have hpush := single_push (e := s.legacyEnv s.ops) heq hle hev
      rw [htop] at hpush
      simp only [List.cons.injEq] at hpush
      by_cases h0 : o.code.toNat = 0
      · rw [if_pos h0] at hpush
        exact absurd hpush.1 hne
      · rw [if_neg h0] at hpush
        have hdat := hpush.1
        rw [heq]
        have : opsData [o] = o.toData := by simp [opsData]
        rw [this, hdat]
        have hlb : o.data.length ≤ 4000000 := hc.bound
        by_cases g1 : o.data.length ≤ 75
        · have hc75 : o.code ≤ 75 := by
            rw [hn, opcodeFromSize_small g1, UInt8.le_iff_toNat_le]; simp; omega
          rw [(consistent_small hc hc75).2, hn, opcodeFromSize_small g1]
          unfold pushBytes
          simp [g1]
        · unfold pushBytes Op.toData
          rw [hc.notUnder, hn]
          unfold Machine.opcodeFromSize
          simp only [g1, if_false, Bool.false_eq_true]
          by_cases g2 : o.data.length ≤ 0xff
          · simp [g2]
          · by_cases g3 : o.data.length ≤ 0xffff
            · simp [g2, g3, writeLE]
            · simp [g2, g3, writeLE]
    · cases hn
  · intro hp
    have hc : (({ code := Machine.opcodeFromSize d.length, data := d } : Op)).Consistent ∧
        opsData [({ code := Machine.opcodeFromSize d.length, data := d } : Op)] = pushBytes d := by
      unfold Machine.opcodeFromSize pushBytes
      simp only
      split_ifs with g1 g2 g3
      · refine ⟨direct_consistent d g1, ?_⟩
        have := (consistent_small (direct_consistent d g1) (by rw [UInt8.le_iff_toNat_le]; simp; omega)).2
        simp only at this
        simp [opsData, this]
      · exact ⟨⟨rfl, by simp [SizeFits]; omega, by show d.length ≤ 4000000; omega⟩, by simp [opsData, Op.toData]⟩
      · exact ⟨⟨rfl, by simp [SizeFits]; omega, by show d.length ≤ 4000000; omega⟩, by simp [opsData, Op.toData, writeLE]⟩
      · omega
    have hi := opsOK_injective h.ops (Machine.opsOK_of [({ code := Machine.opcodeFromSize d.length, data := d } : Op)] (by
      intro o ho
      simp only [List.mem_singleton] at ho
      subst ho; exact hc.1)) h.opsSize (hp.trans hc.2.symm)
    rw [hi]
    simp [nominalPushPattern, Op.isNominalPush]

theorem witness_tail {ops : List Op} (h : s.OK)
    (hm : ∀ p w, s.Ordinary → IsWitnessProgram (opsData ops) 0 p → p.length = 32 → s.witness.getLast? = some w → LastMultisig (parseOps w)) (hok : OpsOK ops) (hl : (opsData ops).length < 2 ^ 63) (pre : Bool) (e : Err) (e' : Err)
    (nested : Bool) (q : Prop) [Decidable q] (hq : ∀ v p, IsWitnessProgram (opsData ops) v p → (pre = true ↔ q)) :
    Agrees s (if s.flags.bip141 && witnessProgramPattern ops then
        if !pre then some (some e) else connectWitness s ops nested
      else if !s.witness.isEmpty then some (some e') else some none)
      (match (if s.flags.bip141 then program? (opsData ops) else none) with
        | some (v, p) => decide q && program s v p nested
        | none => s.witness.isEmpty) := by
  have hnone : Agrees s (if !s.witness.isEmpty then some (some e') else some none) s.witness.isEmpty := by
    cases s.witness.isEmpty
    · exact .fail _
    · exact .ok
  cases hb : s.flags.bip141 with
  | false => simpa using hnone
  | true =>
    simp only [if_true, Bool.true_and]
    cases hp : program? (opsData ops) with
    | none =>
      have : witnessProgramPattern ops = false := by
        cases hw : witnessProgramPattern ops
        · rfl
        · obtain ⟨v, p, hh⟩ := (witness_pattern_iff hok hl).1 hw
          rw [← program?_iff, hp] at hh; cases hh
      rw [this]
      simpa using hnone
    | some x =>
      obtain ⟨v, p⟩ := x
      have hw := (program?_iff _ _ _).1 hp
      rw [(witness_pattern_iff hok hl).2 ⟨v, p, hw⟩]
      simp only [if_true]
      have hqq := hq v p hw
      cases pre
      · have : ¬ q := fun hh => by simpa using hqq.2 hh
        simp only [Bool.not_false, if_true, this, decide_false, Bool.false_and]
        exact .fail _
      · have : q := hqq.1 rfl
        simp only [Bool.not_true, Bool.false_eq_true, if_false, this, decide_true, Bool.true_and]
        exact program_agrees h hm hok hl hw nested

theorem connect_agrees (h : s.OK) : Agrees s (connect s) (verify s) := by
  unfold connect verify
  have main := runThen_agrees (s := s) (legacy_ok h s.ops) h.ops h.opsSize rfl [] 0 0 (fun hh => by cases hh)
    (fun i => runThen (s.legacyEnv s.prevout) i.primary 0 (fun t => testTrue false t
      (if s.flags.bip16 && payScriptHashPattern s.prevout then connectEmbedded s i.primary
      else if s.flags.bip141 && witnessProgramPattern s.prevout then
        if !s.ops.isEmpty then some (some .dirty_witness) else connectWitness s s.prevout false
      else if !s.witness.isEmpty then some (some .unexpected_witness)
      else some none)) some) some
    (fun t1 => match eval (s.legacyEnv s.prevout) (start t1.stack 0) with
    | .done t2 => accepts t2.stack &&
      if s.flags.bip16 = true ∧ IsP2SH (opsData s.prevout) then
        s.ops.all (fun o => decide (o.code.toNat ≤ 96)) &&
        match t1.stack with
        | [] => false
        | serialized :: rest => match eval (s.legacyEnv (parseOps serialized)) (start rest 0) with
          | .done t3 => accepts t3.stack &&
            (match (if s.flags.bip141 then program? serialized else none) with
            | some (v, p) => decide (opsData s.ops = Script.pushBytes serialized) && program s v p true
            | none => s.witness.isEmpty)
          | _ => false
      else match (if s.flags.bip141 then program? (opsData s.prevout) else none) with
        | some (v, p) => decide (opsData s.ops = []) && program s v p false
        | none => s.witness.isEmpty
    | _ => false) false (fun _ ho => .inl ho.input) (fun _ _ => rfl) rfl ?_
  · have e0 : ([] : List Val).map Val.toChunk = [] := rfl
    rw [e0] at main
    convert main using 1
    cases eval (s.legacyEnv s.ops) (start [] 0) <;> rfl
  · intro i t1 hr1 hev1 hw1
    have hst1 : i.primary.map Val.toChunk = t1.stack := hr1.stack
    have hsmall := (hw1 ⟨by simp, by simp⟩).1
    have main2 := runThen_agrees (s := s) (legacy_ok h s.prevout) h.prevout h.prevoutSize rfl i.primary 0 0 (fun hh => by cases hh)
      (fun t => testTrue false t
      (if s.flags.bip16 && payScriptHashPattern s.prevout then connectEmbedded s i.primary
      else if s.flags.bip141 && witnessProgramPattern s.prevout then
        if !s.ops.isEmpty then some (some .dirty_witness) else connectWitness s s.prevout false
      else if !s.witness.isEmpty then some (some .unexpected_witness)
      else some none)) some
      (fun t2 => accepts t2.stack &&
      if s.flags.bip16 = true ∧ IsP2SH (opsData s.prevout) then
        s.ops.all (fun o => decide (o.code.toNat ≤ 96)) &&
        match t1.stack with
        | [] => false
        | serialized :: rest => match eval (s.legacyEnv (parseOps serialized)) (start rest 0) with
          | .done t3 => accepts t3.stack &&
            (match (if s.flags.bip141 then program? serialized else none) with
            | some (v, p) => decide (opsData s.ops = Script.pushBytes serialized) && program s v p true
            | none => s.witness.isEmpty)
          | _ => false
      else match (if s.flags.bip141 then program? (opsData s.prevout) else none) with
        | some (v, p) => decide (opsData s.ops = []) && program s v p false
        | none => s.witness.isEmpty) false
      (fun _ ho => .inr ⟨ho.prevout, fun t ht => by simp only [(accepts_false ht).1, Bool.false_and]⟩) (fun _ _ => rfl) rfl ?_
    · rw [hst1] at main2
      convert main2 using 1
      cases eval (s.legacyEnv s.prevout) (start t1.stack 0) <;> rfl
    · intro s2 t2 hr2 hev2 _
      refine testTrue_agrees hr2 false _ _ (fun _ => ?_)
      have hpat := p2sh_pattern_iff h.prevout h.prevoutSize
      by_cases hp2 : s.flags.bip16 = true ∧ IsP2SH (opsData s.prevout)
      · rw [if_pos (by rw [hp2.1, hpat.2 hp2.2]; rfl), if_pos hp2]
        unfold connectEmbedded
        rw [relaxed_eq]
        cases hall : s.ops.all (fun o => decide (o.code.toNat ≤ 96))
        · exact .fail _
        · simp only [Bool.not_true, Bool.false_eq_true, if_false, Bool.true_and]
          cases hpr : i.primary with
          | nil =>
            exfalso
            rw [hpr] at hev2
            exact p2sh_needs_element (s.legacyEnv s.prevout) h.prevout h.prevoutSize hp2.2 t2 hev2
          | cons v rest =>
            have hts : t1.stack = v.toChunk :: rest.map Val.toChunk := by rw [← hst1, hpr]; rfl
            have hv520 : v.toChunk.length ≤ 520 := (hsmall v (by rw [hpr]; simp)).length
            have hvl : v.toChunk.length < 2 ^ 63 := by omega
            rw [hts]
            simp only
            have main3 := runThen_agrees (s := s) (legacy_ok h (parseOps v.toChunk)) (parseOps_ok hvl)
              (by show (opsData (parseOps v.toChunk)).length < _; rw [parseOps_data hvl]; exact hvl) rfl rest 0 0 (fun hh => by cases hh)
              (fun t => testTrue false t
                (if s.flags.bip141 && witnessProgramPattern (parseOps v.toChunk) then
                  if !nominalPushPattern s.ops then some (some .dirty_embed) else connectWitness s (parseOps v.toChunk) true
                else if !s.witness.isEmpty then some (some .unexpected_witness)
                else some none)) some
              (fun t3 => accepts t3.stack &&
                (match (if s.flags.bip141 then program? v.toChunk else none) with
                | some (v', p) => decide (opsData s.ops = Script.pushBytes v.toChunk) && program s v' p true
                | none => s.witness.isEmpty)) false
              (fun _ ho => .inr ⟨ho.redeem v.toChunk ⟨hp2.1, hp2.2, t1, hev1, by rw [hts]; rfl⟩, fun t ht => by simp only [(accepts_false ht).1, Bool.false_and]⟩)
              (fun _ _ => rfl) rfl ?_
            · convert main3 using 1
              cases eval (s.legacyEnv (parseOps v.toChunk)) (start (rest.map Val.toChunk) 0) <;> rfl
            · intro s3 t3 hr3 _ _
              refine testTrue_agrees hr3 false _ _ (fun _ => ?_)
              have ht := witness_tail h (fun p w ho hw => ho.witness _ p w (.inr (by
                rw [parseOps_data hvl]; exact ⟨hp2.1, hp2.2, t1, hev1, by rw [hts]; rfl⟩)) hw) (parseOps_ok hvl) (by rw [parseOps_data hvl]; exact hvl) (nominalPushPattern s.ops)
                .dirty_embed .unexpected_witness true (opsData s.ops = pushBytes v.toChunk) (by
                  intro w p hw
                  rw [parseOps_data hvl] at hw
                  have hne : v.toChunk ≠ [] := by
                    obtain ⟨_, _, c, hc, _⟩ := hw
                    rw [hc]; simp
                  exact nominal_iff h hv520 hne t1 hev1 _ hts)
              rw [parseOps_data hvl] at ht
              exact ht
      · rw [if_neg hp2, if_neg (by
          intro hh
          simp only [Bool.and_eq_true] at hh
          exact hp2 ⟨hh.1, hpat.1 hh.2⟩)]
        have := witness_tail h (fun p w ho hw => ho.witness _ p w (.inl rfl) hw) h.prevout h.prevoutSize s.ops.isEmpty .dirty_witness .unexpected_witness false (opsData s.ops = [])
          (fun _ _ _ => by rw [opsData_nil_iff h.ops, List.isEmpty_iff])
        exact this

/-! ### C52 -/

/-- Connecting never pops an empty stack or otherwise leaves defined behaviour. -/
theorem C52_no_undefined_access (s : Spend) (h : s.OK) : ∃ r, connect s = some r := by
  obtain ⟨x, h1, _⟩ := connect_agrees h
  exact ⟨x, h1⟩

/-- An input the library accepts is accepted by the reference algorithm. -/
theorem C52_accepted_is_valid (s : Spend) (h : s.OK) (hc : connect s = some none) : verify s = true := by
  obtain ⟨x, h1, h2⟩ := connect_agrees h
  rw [hc] at h1
  cases h1
  exact h2

/-- An input the reference algorithm accepts is accepted, unless the library stops at a multisig signature that is not
DER under BIP66, in a spend with CHECKMULTISIG other than at the end of a script (see `C52_multisig_counterexample`; the
full claim would have no exception). -/
theorem C52_valid_is_accepted_partial (s : Spend) (h : s.OK) (hv : verify s = true) :
    connect s = some none ∨
      (connect s = some (some .op_check_multisig_decode_signature) ∧ s.flags.bip66 = true ∧ ¬ s.Ordinary) := by
  obtain ⟨x, h1, h2⟩ := connect_agrees h
  rw [h1]
  match x, h2 with
  | none, _ => exact .inl rfl
  | some err, .inl h3 => rw [hv] at h3; cases h3
  | some err, .inr ⟨h3, h4⟩ => exact .inr ⟨by rw [h3], h4⟩

/-- Without BIP66 the two agree exactly. -/
theorem C52_exact (s : Spend) (h : s.OK) (h66 : s.flags.bip66 = false) : connect s = some none ↔ verify s = true := by
  constructor
  · exact C52_accepted_is_valid s h
  · intro hv
    rcases C52_valid_is_accepted_partial s h hv with h1 | ⟨_, h2, _⟩
    · exact h1
    · rw [h66] at h2; cases h2

/-- The two agree exactly on every spend that uses CHECKMULTISIG at most at the end of its scripts. -/
theorem C52_exact_ordinary (s : Spend) (h : s.OK) (ho : s.Ordinary) : connect s = some none ↔ verify s = true := by
  constructor
  · exact C52_accepted_is_valid s h
  · intro hv
    rcases C52_valid_is_accepted_partial s h hv with h1 | ⟨_, _, h2⟩
    · exact h1
    · exact absurd ho h2

/-- Toy cryptography for the examples: hashes are constant, a signature is valid for a key if they start alike. -/
def toySpend (flags : Machine.Flags) (ops prevout : List Op) (witness : List Bytes) : Spend where
  flags := flags
  ops := ops
  prevout := prevout
  witness := witness
  sequence := 0
  locktime := 0
  version := 2
  rmd160 := fun _ => List.replicate 20 0
  sha1 := fun _ => List.replicate 20 0
  sha256 := fun _ => List.replicate 32 1
  hash160 := fun _ => List.replicate 20 0
  hash256 := fun _ => List.replicate 32 0
  leafHash := fun _ _ => List.replicate 32 1
  branchHash := fun _ _ => List.replicate 32 2
  tweakHash := fun _ _ => List.replicate 32 3
  decodeSig := fun d _ => if d.head? = some 0xbb then none else some d
  sighash := fun _ _ _ => some []
  sighashTap := fun _ _ _ => some []
  verifyEcdsa := fun k _ s => decide (k = s)
  verifySchnorr := fun k _ s => decide (k.head? = s.head?)
  verifyCommitment := fun _ _ _ p => p

theorem toySpend_ok (flags : Machine.Flags) (ops prevout : List Op) (witness : List Bytes) (hf : flags.bip341 = flags.bip342)
    (h1 : ∀ o ∈ ops, o.Consistent) (h2 : ∀ o ∈ prevout, o.Consistent) (l1 : (opsData ops).length < 2 ^ 63)
    (l2 : (opsData prevout).length < 2 ^ 63) (l3 : ((Witness.ofStack witness).toData true).length < 2 ^ 63) :
    (toySpend flags ops prevout witness).OK where
  ops := Machine.opsOK_of _ h1
  opsSize := l1
  prevout := Machine.opsOK_of _ h2
  prevoutSize := l2
  witness := l3
  rmd160 := fun _ => rfl
  sha1 := fun _ => rfl
  sha256 := fun _ => rfl
  hash160 := fun _ => rfl
  hash256 := fun _ => rfl
  total := fun _ _ _ => rfl
  tap := fun h => hf ▸ h

def allFlags : Machine.Flags :=
  { bip16 := true, bip65 := true, bip112 := true, bip141 := true, bip143 := true, bip147 := true, bip341 := true, bip342 := true }

def p2shOut : List Op := [{ code := 169 }, { code := 20, data := List.replicate 20 0 }, { code := 135 }]
def p2trOut : List Op := [{ code := 81 }, { code := 32, data := List.replicate 32 7 }]
def p2wshOut : List Op := [{ code := 0 }, { code := 32, data := List.replicate 32 1 }]

theorem p2shOut_consistent : ∀ o ∈ p2shOut, o.Consistent := by
  intro o ho
  simp only [p2shOut, List.mem_cons, List.not_mem_nil, or_false] at ho
  rcases ho with rfl | rfl | rfl
  · exact plain_consistent _ (by decide)
  · exact direct_consistent (List.replicate 20 0) (by simp)
  · exact plain_consistent _ (by decide)
theorem p2trOut_consistent : ∀ o ∈ p2trOut, o.Consistent := by
  intro o ho
  simp only [p2trOut, List.mem_cons, List.not_mem_nil, or_false] at ho
  rcases ho with rfl | rfl
  · exact plain_consistent _ (by decide)
  · exact direct_consistent (List.replicate 32 7) (by simp)

/-- Non-vacuity: a P2SH spend (redeem script `OP_1`), a taproot key path spend and a P2WSH spend meet the hypotheses and
are accepted; a P2SH spend leaving false, a key path spend with a wrong signature and a P2WSH spend with a dirty stack
are rejected. -/
example :
    (toySpend allFlags [{ code := 1, data := [81] }] p2shOut []).OK ∧
    (toySpend allFlags [] p2trOut [List.replicate 64 7]).OK ∧
    connect (toySpend allFlags [{ code := 1, data := [81] }] p2shOut []) = some none ∧
    connect (toySpend allFlags [{ code := 1, data := [0] }] p2shOut []) = some (some .stack_false) ∧
    connect (toySpend allFlags [] p2trOut [List.replicate 64 7]) = some none ∧
    connect (toySpend allFlags [] p2trOut [List.replicate 64 8]) = some (some .op_check_sig_schnorr3) ∧
    connect (toySpend allFlags [] p2wshOut [[81]]) = some none ∧
    connect (toySpend allFlags [] p2wshOut [[1], [81]]) = some (some .stack_false) := by
  refine ⟨toySpend_ok _ _ _ _ rfl ?_ p2shOut_consistent (by decide) (by decide) (by decide),
    toySpend_ok _ _ _ _ rfl (by simp) p2trOut_consistent (by decide) (by decide) (by decide),
    by decide +kernel, by decide +kernel, by decide +kernel, by decide +kernel, by decide +kernel, by decide +kernel⟩
  intro o ho
  simp only [List.mem_singleton] at ho
  subst ho
  exact direct_consistent [81] (by simp)

/-- The exception is real: the library rejects an input that the reference algorithm accepts. -/
theorem C52_multisig_counterexample :
    connect (toySpend { bip66 := true } [] Machine.multisigOps []) = some (some .op_check_multisig_decode_signature) ∧
    verify (toySpend { bip66 := true } [] Machine.multisigOps []) = true := by
  constructor <;> decide +kernel

end Verif
