#!/usr/bin/env python3
"""Run seeded-bug experiments on a scratch copy of the model.

usage: mutate.py EXPERIMENTS.json   (list of {file, old, new, definition, edit, claim})
Each experiment edits one model definition in the scratch copy, rebuilds, and appends a line to
seeded/LOG.jsonl naming the declarations that no longer compile and the property theorems that
depend on them (transitively, read off the proof terms of the unmodified build).
"""
import fcntl, json, os, re, shutil, subprocess, sys, glob, time
SRC = '/verif/lean'
DST = '/root/mut/lean'

def sync():
    os.makedirs(DST, exist_ok=True)
    shutil.rmtree(os.path.join(DST, 'Verif'), ignore_errors=True)
    for _ in range(20):  # a build in SRC may replace files while they are copied
        if subprocess.run(f'cp -a {SRC}/. {DST}/', shell=True).returncode == 0: return
        time.sleep(30)
    raise SystemExit('cannot copy')

DECL = re.compile(r'^(?:@\[[^\]]*\]\s*)?(?:noncomputable\s+|private\s+|protected\s+)*(theorem|def|lemma|instance|abbrev|structure|inductive|example)\b\s*([^\s:({\[]*)')

def decls(path):
    out = []
    for i, l in enumerate(open(path), 1):
        m = DECL.match(l)
        if m:
            out.append((i, m.group(1), m.group(2)))
    return out

DEPS = '''import Verif
/-! Prints, for every property theorem, the declarations of the model it depends on, with their modules. -/
open Lean

partial def visit (env : Environment) (n : Name) : StateM NameSet Unit := do
  if (← get).contains n then return
  let some mod := env.getModuleIdxFor? n | return
  unless (`Verif).isPrefixOf env.header.moduleNames[mod]! do return
  modify (·.insert n)
  if let some c := env.find? n then
    for m in c.getUsedConstantsAsSet do
      visit env m

run_cmd do
  let env ← getEnv
  for (n, _) in env.constants.map₁.toList do
    unless n.getPrefix == `Geo && !n.isInternal do continue
    let s := n.getString!.toList
    unless s.length > 3 && s[0]! == 'C' && s[1]!.isDigit do continue
    let some mod := env.getModuleIdxFor? n | continue
    unless (`Verif.Props).isPrefixOf env.header.moduleNames[mod]! do continue
    let ((), seen) := (visit env n).run {}
    let l := seen.toList.map fun m => s!"{m}@{((env.getModuleIdxFor? m).map fun i => env.header.moduleNames[i]!).getD `x}"
    Lean.logInfo m!"DEP {n} {" ".intercalate l}"
'''

def deps():
    """property theorem -> set of (declaration, module) it uses, from the unmodified build"""
    # written to the scratch copy only; it is not part of the model
    with open(os.path.join(DST, 'deps.lean'), 'w') as f:
        f.write(DEPS)
    r = subprocess.run('lake env lean deps.lean', shell=True, cwd=DST, capture_output=True, text=True)
    res = {}
    for m in re.finditer(r'^.*DEP (\S+)((?: \S+@\S+|\s*\n\s+\S+@\S+)*)', r.stdout, re.M):
        res[m.group(1).split('.')[-1]] = {tuple(w.split('@')) for w in m.group(2).split()}
    assert res, r.stdout[:500] + r.stderr[:500]
    return res

def dependents(dep, failed):
    """failed: list of (name as written, module)"""
    out = []
    for prop, ds in dep.items():
        if any(mod == m and (n == 'Geo.' + f or n.endswith('.' + f)) for f, m in failed for n, mod in ds):
            out.append(prop)
    return sorted(out)

def run(x, log, dep):
    p = os.path.join(DST, x['file'])
    orig = open(p).read()
    assert orig.count(x['old']) == 1, (x['edit'], orig.count(x['old']))
    open(p, 'w').write(orig.replace(x['old'], x['new']))
    try:
        r = subprocess.run('lake build', shell=True, cwd=DST, capture_output=True, text=True)
        txt = r.stdout + r.stderr
    finally:
        open(p, 'w').write(orig)
    failed = []
    where = []
    for f, l in re.findall(r'error: ([\w/.]+\.lean):(\d+):', txt):
        path = os.path.join(DST, f)
        if not os.path.exists(path):
            continue
        cur = None
        for i, kind, name in decls(path):
            if i <= int(l):
                cur = name if kind != 'example' else f'example@{os.path.basename(f)}:{i}'
        if cur and cur not in failed:
            failed.append(cur)
            where.append((cur, f[:-5].replace('/', '.')))
    props = dependents(dep, where)
    entry = {'definition': x['definition'], 'file': x['file'], 'edit': x['edit'], 'claim_broken': x['claim'],
             'failed_declarations': failed, 'theorems_failed': props,
             'theorems_tightened': x.get('tightened', []), 'caught': bool(failed)}
    if x.get('note'):
        entry['note'] = x['note']
    print(json.dumps(entry, ensure_ascii=False)[:600], flush=True)
    if log:
        with open('/verif/seeded/LOG.jsonl', 'a') as o:
            o.write(json.dumps(entry, ensure_ascii=False) + '\n')
    return entry

if __name__ == '__main__':
    # one campaign at a time: they share the scratch copy
    lock = open('/root/mut/lock', 'w')
    fcntl.flock(lock, fcntl.LOCK_EX)
    sync()
    subprocess.run('lake build', shell=True, cwd=DST, capture_output=True)
    dep = deps()
    for x in json.load(open(sys.argv[1])):
        run(x, '--dry' not in sys.argv, dep)
    sync()
