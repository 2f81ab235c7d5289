import Verif.Model.Diag
/-! # Messages of the location extraction

location.py:176-459 once more, with the messages of level WARNING and above. Each function logs and computes what its
namesake in `Model/Location` computes (`LM`: the calls so far and the outcome). -/
set_option autoImplicit false

namespace Verif

/-- location.py:188, 202 -/
def wrongSourceCall : LogCall := ⟨.critical, cs!"Do you have the correct source code version for this kernel?", []⟩

/-- location.py:187-188 -/
def noFileCalls (file : Path) : List LogCall := [⟨.critical, cs!"File \"%s\" does not exist!", [.obj file.str]⟩, wrongSourceCall]

/-- location.py:201-202 -/
def shortFileCalls (file : Path) : List LogCall :=
  [⟨.critical, cs!"File \"%s\" does not have enough lines of code!", [.obj file.str]⟩, wrongSourceCall]

/-- location.py:176-229 `adjust_line`; the loop fails only at lines 198-203 -/
def adjustLineL (fs : Files) (file : Path) (line : Nat) : LM Nat :=
  match fs file with
  | none => (noFileCalls file, .error (.exit 1))
  | some lines =>
    match adjustGo lines line line with
    | .error e => (shortFileCalls file, .error e)
    | .ok n => LM.pure n

/-- location.py:271-306 one round of the first loop -/
def firstStepL (w : LEnv) (a : Arch) (kdir : Path) (rdir : Option Path) (sc : Syscall) (loc : Loc) : LM (Syscall × Bool × Next) := do
  let file ← LM.lift (remapPath kdir rdir loc.1)
  let sc := { sc with file := file, goodLocation := false }
  match validLoc w.files file loc.2 with
  | none => LM.pure (sc, false, nextBySize 1 sc)
  | some (f, l) => do
    let bad := !f.isRelativeTo (w.resolve kdir)
    let line ← adjustLineL w.files f l
    let sc := { sc with line := some line }
    if sc.esoteric then LM.pure (sc, bad, .done)
    else do
      let good ← LM.lift (goodLocationAt w.files f line a sc)
      if good then LM.pure ({ sc with goodLocation := true }, bad, .done)
      else LM.pure (sc, bad, nextBySize 1 sc)

/-- location.py:271-306 the first loop -/
def firstLoopL (w : LEnv) (a : Arch) (kdir : Path) (rdir : Option Path) : Nat → List Syscall → List Loc → Work → LM Work
  | i, sc :: scs, loc :: locs, k => do
    let (sc', bad, n) ← firstStepL w a kdir rdir sc loc
    firstLoopL w a kdir rdir (i + 1) scs locs
      (Work.push { k with scs := k.scs ++ [sc'], bad := k.bad || bad } n (i, sc'))
  | _, scs, _, k => LM.pure { k with scs := k.scs ++ scs }

/-- location.py:337-370 the second loop -/
def secondLoopL (w : LEnv) (a : Arch) (kdir : Path) (rdir : Option Path) : List Ref → List (Res Loc) → Work → LM Work
  | r :: rs, loc :: locs, k => do
    let loc ← LM.lift loc
    let file ← LM.lift (remapPath kdir rdir loc.1)
    match validLoc w.files file loc.2 with
    | none => secondLoopL w a kdir rdir rs locs (k.push (nextBySize 2 r.2) r)
    | some (f, l) => do
      let line ← adjustLineL w.files f l
      let good ← LM.lift (goodLocationAt w.files f line a r.2)
      if good then secondLoopL w a kdir rdir rs locs { k with scs := setLoc r.1 f line k.scs }
      else secondLoopL w a kdir rdir rs locs (k.push (nextBySize 2 r.2) r)
  | _, _, k => LM.pure k

/-- location.py:385-402 the loop over the answers for one syscall -/
def retryLoopL (w : LEnv) (a : Arch) (kdir : Path) (rdir : Option Path) (sc : Syscall) :
    List (Res Loc) → Bool → Bool → LM Retry
  | [], invalid, lastNone => LM.pure (.failed invalid lastNone)
  | loc :: locs, invalid, _ => do
    let loc ← LM.lift loc
    let file ← LM.lift (remapPath kdir rdir loc.1)
    match validLoc w.files file loc.2 with
    | none => retryLoopL w a kdir rdir sc locs invalid file.isNone
    | some (f, l) => do
      let line ← adjustLineL w.files f l
      let good ← LM.lift (goodLocationAt w.files f line a sc)
      if good then LM.pure (.found f line)
      else retryLoopL w a kdir rdir sc locs false false

/-- location.py:381-411 the third loop -/
def thirdLoopL (w : LEnv) (a : Arch) (kdir : Path) (rdir : Option Path) : List Ref → Work → LM Work
  | [], k => LM.pure k
  | r :: rs, k => do
    let locs ← LM.lift (smartAddr2line w (retryAddrs r.2) (some kdir))
    let res ← retryLoopL w a kdir rdir r.2 locs true false
    match res with
    | .found f line => thirdLoopL w a kdir rdir rs { k with scs := setLoc r.1 f line k.scs }
    | .failed invalid lastNone =>
      if !invalid && lastNone then LM.lift (.error .attr)
      else thirdLoopL w a kdir rdir rs (k.push .grep r)

/-- location.py:458-459; `rel` is `maybe_rel(file, kdir)`, which does not fail -/
def greppedCall (kdir : Path) (origname : Str) (file : Path) (line : Nat) : LogCall :=
  ⟨.warning, cs!"Location found through grepping: %s -> %s:%d",
    [.obj origname, .obj ((match maybeRel file (some kdir) with | .ok p => p | .error _ => file).str), .int line]⟩

/-- location.py:446-459 the last loop -/
def fourthLoopL (w : LEnv) (a : Arch) (kdir : Path) : List (Ref × Option (Path × Nat)) → List Syscall → LM (List Syscall)
  | [], scs => LM.pure scs
  | (_, none) :: gs, scs => fourthLoopL w a kdir gs scs
  | (r, some (f, line)) :: gs, scs => do
    let good ← LM.lift (goodLocationAt w.files f line a r.2)
    if good then do
      LM.log [greppedCall kdir r.2.origname f line]
      fourthLoopL w a kdir gs ((setLoc r.1 f line scs).modify r.1 fun sc => { sc with greppedLocation := true })
    else fourthLoopL w a kdir gs scs

/-- location.py:234 -/
def noToolCall : LogCall := ⟨.warning, cs!"Command \"addr2line\" unavailable, skipping location info extraction", []⟩

/-- location.py:250-253 -/
def noSourceCall (known : Bool) : LogCall :=
  if known then ⟨.warning, cs!"No kernel source available, trusting addr2line output for location info", []⟩
  else ⟨.warning, cs!"No kernel source available and no addr2line output, cannot extract location info", []⟩

/-- location.py:329-331 -/
def hopelessCalls : List LogCall :=
  [⟨.warning, cs!"All the locations obtained from addr2line look bad, did you provide the correct KDIR?", []⟩,
   ⟨.warning, cs!"Skipping location information extraction", []⟩]

/-- location.py:414-415 -/
def outsideSourceCall : LogCall := ⟨.error, cs!"Cannot grep source code, debug info points outside provided kernel source directory", []⟩

/-- location.py:231-459 `extract_syscall_locations` -/
def extractLocationsL (w : LEnv) (a : Arch) (kdir rdir : Option Path) (scs : List Syscall) : LM (List Syscall) :=
  if !w.haveAddr2line then do
    LM.log [noToolCall]
    LM.pure scs
  else do
    let items ← LM.lift (smartAddr2line w (scs.map fun s => s.symbol.realVaddr) kdir)
    let locs ← LM.lift (forceAll items)
    match kdir with
    | none => do
      LM.log [noSourceCall ((trustLocs scs locs).any fun sc => sc.file.isSome)]
      LM.pure (trustLocs scs locs)
    | some kdir => do
      let k1 ← firstLoopL w a kdir rdir 0 scs locs ⟨[], false, [], []⟩
      let toAdjust := sortRefs k1.adjust
      if !toAdjust.isEmpty && toAdjust.length == locs.length then do
        LM.log hopelessCalls
        LM.pure k1.scs
      else do
        let k2 ← (if toAdjust.isEmpty then LM.pure { k1 with adjust := [] } else do
          let items ← LM.lift (smartAddr2line w (toAdjust.map fun r => r.2.symbol.realVaddr + r.2.symbol.size - 1) (some kdir))
          secondLoopL w a kdir rdir toAdjust items { k1 with adjust := [] } : LM Work)
        let k3 ← thirdLoopL w a kdir rdir (sortRefs k2.adjust) k2
        if k3.bad then do
          LM.log [outsideSourceCall]
          LM.pure k3.scs
        else do
          let grepped ← LM.lift (grepSources w a kdir k3.grep)
          fourthLoopL w a kdir (sortBy grepOrder grepped) k3.scs

end Verif
