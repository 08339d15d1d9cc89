#!/usr/bin/env python3
# Writes /tmp/w/Deps.lean: for every theorem in MANIFEST.json the constants of this project it rests on, transitively, one line each.
import json
names=[t for c in json.load(open('/verif/MANIFEST.json'))['claims'] for t in c['theorems']]
L=['import Verif','open Lean Elab Command','''
partial def collect (env : Environment) (n : Name) : StateM NameSet Unit := do
  if (← get).contains n then return
  match env.getModuleIdxFor? n with
  | none => return
  | some i =>
    if !(`Verif).isPrefixOf env.header.moduleNames[i.toNat]! then return
  modify (·.insert n)
  match env.find? n with
  | none => return
  | some ci =>
    for c in ci.type.getUsedConstants do collect env c
    match ci.value? (allowOpaque := true) with
    | some v => for c in v.getUsedConstants do collect env c
    | none => pure ()
elab "#deps " n:ident : command => do
  let env ← getEnv
  let (_, s) := (collect env n.getId).run {}
  IO.println s!"DEP {n.getId} {" ".intercalate (s.toList.map toString)}"
''']
L+=['#deps '+n for n in names]
open('/tmp/w/Deps.lean','w').write('\n'.join(L)+'\n')
