#!/usr/bin/env python3
"""Generate lean/Verif/Conformance/Args.lean: command lines and what Python's own `argparse` makes of them.

The parser below is a transcript of cli.py:77-172; cli.py itself is not run.
usage: argvectors.py [number of random command lines] [output file]
"""
import argparse, contextlib, io, os, random, sys

def parser():
    p = argparse.ArgumentParser()
    p.add_argument('-t', '--task', type=str, default='hello')
    g = p.add_mutually_exclusive_group()
    g.add_argument('--private-key-hex', dest='private_key_hex', type=str, nargs='+', action='append')
    g.add_argument('--private-key-file', dest='private_key_file', type=str, nargs='+', action='append')
    g.add_argument('--private-key-dir', dest='private_key_dir', type=str)
    g.add_argument('--private-key-wif', dest='private_key_wif', type=str)
    p.add_argument('--public-key-hex', dest='public_key_hex', type=str)
    p.add_argument('--signature-hex', dest='signature_hex', type=str)
    g = p.add_mutually_exclusive_group()
    g.add_argument('--data', type=str)
    g.add_argument('--data-file', dest='data_file', type=str)
    p.add_argument('--input-file', dest='input_file', type=str)
    p.add_argument('--design-file', dest='design_file', type=str)
    p.add_argument('-l', '--log-level', dest='log_level', type=str, choices=['debug', 'info', 'warning', 'error'], default='error')
    p.add_argument('-d', '--debug', action='store_true')
    p.add_argument('-s', '--log-timestamp', dest='log_timestamp', action='store_true')
    p.add_argument('-x', '--log-to-file', dest='log_to_file', action='store_true')
    p.add_argument('-z', '--log-file', dest='log_file', type=str, default='log_bitcoin_toolset.txt')
    return p

def run(argv):
    o = io.StringIO()
    try:
        with contextlib.redirect_stdout(o), contextlib.redirect_stderr(o):
            return parser().parse_args(argv)
    except SystemExit as e:
        return {0: 'help', 2: 'usage'}[e.code]

def lit(s):
    return 'py"' + s.replace('\\', '\\\\').replace('"', '\\"').replace('\n', '\\n') + '"'
def lst(l):
    return '[' + ', '.join(l) + ']'
def opt(s):
    return 'none' if s is None else '(some %s)' % lit(s)
def b(x):
    return 'true' if x else 'false'

def expect(r):
    if isinstance(r, str):
        return '.' + r
    kk = lambda v: lst(lst(map(lit, x)) for x in (v or []))
    f = [('task', lit(r.task)), ('privateKeyHex', kk(r.private_key_hex)), ('privateKeyFile', kk(r.private_key_file)),
         ('privateKeyDir', opt(r.private_key_dir)), ('privateKeyWif', opt(r.private_key_wif)),
         ('publicKeyHex', opt(r.public_key_hex)), ('signatureHex', opt(r.signature_hex)), ('data', opt(r.data)),
         ('dataFile', opt(r.data_file)), ('inputFile', opt(r.input_file)), ('designFile', opt(r.design_file)),
         ('logLevel', lit(r.log_level)), ('debug', b(r.debug)), ('logTimestamp', b(r.log_timestamp)),
         ('logToFile', b(r.log_to_file)), ('logFile', lit(r.log_file))]
    d = {'task': lit('hello'), 'privateKeyHex': '[]', 'privateKeyFile': '[]', 'logLevel': lit('error'),
         'logFile': lit('log_bitcoin_toolset.txt')}
    f = [(k, v) for k, v in f if v not in ('none', 'false') and d.get(k) != v]
    return '.ok { ' + ', '.join('%s := %s' % x for x in f) + ' }' if f else '.ok {}'

LONG = [s for a in parser()._actions for s in a.option_strings if s.startswith('--')]
WORDS = ['a', 'k1', 'x y', '', '-', '--', '-5', '-1.5', '-.5', '-5\n', '-5.', '-q', '-a b', '- z', '=', 'a=b', '-=', '--=a', 'info', 'error', 'get_address',
         '-d', '-s', '-x', '-h', '-ds', '-dsx', '-dq', '-dt', '-dtfoo', '-dt=foo', '-dh', '-d=', '-d=s', '-ds=', '-ds=1', '-d-s', '-tfoo', '-t=foo', '-t', '-linfo',
         '-l', '-lx', '-zq', '-zq r', '-hq', '-dl', '--unknown', '--unknown=1', '--task x', '-d e']
def rnd(r):
    l = []
    for _ in range(r.randrange(1, 7)):
        k = r.random()
        o = r.choice(LONG)
        if k < .35: l += [o, r.choice(['a', 'k1', 'info', 'b c', '-5'])]
        elif k < .45: l.append(o)
        elif k < .55: l.append(o + '=' + r.choice(WORDS))
        elif k < .65: l.append(o[:r.randrange(2, len(o) + 1)])
        elif k < .70: l.append(o[:r.randrange(2, len(o) + 1)] + '=' + r.choice(WORDS))
        elif k < .85: l.append(r.choice(WORDS))
        else: l.append(r.choice(['a', 'k1', 'k2']))
    return l

def main():
    n = int(sys.argv[1]) if len(sys.argv) > 1 else 150
    out = sys.argv[2] if len(sys.argv) > 2 else os.path.join(os.path.dirname(os.path.abspath(__file__)), '../lean/Verif/Conformance/Args.lean')
    r = random.Random(n)
    cases = [[]] + [[w] for w in WORDS] + [['--data', w] for w in WORDS] + [['--private-key-hex', 'a', w] for w in WORDS]
    for o in LONG:
        cases += [[o], [o, 'a'], [o, 'info'], [o + '=info'], [o[:-1], 'info'], [o[:5], 'a']]
    cases += [rnd(r) for _ in range(n)]
    seen, body = set(), []
    for c in cases:
        if tuple(c) in seen: continue
        seen.add(tuple(c))
        body.append('  (%s, %s)' % (lst(map(lit, c)), expect(run(c))))
    chunks = [body[i:i + 60] for i in range(0, len(body), 60)]
    with open(out, 'w') as f:
        f.write('''import Verif.Argparse
import Verif.Concrete.Ecdsa

/-!
# Command lines and what Python's `argparse` makes of them

Generated by `tools/argvectors.py` (Python %s): do not edit.  Tests, not proofs.
-/

set_option linter.all false
set_option maxRecDepth 100000

namespace BT.Conformance

open BT.Concrete

deriving instance DecidableEq for RawArgs
deriving instance DecidableEq for Namespace
deriving instance DecidableEq for Parsed

/-- the model agrees with a recorded result -/
def argsAgree (l : List (List Str × Parsed)) : Bool := l.all fun p => decide (parseArgs uniSample p.1 = p.2)

''' % sys.version.split()[0])
        for ch in chunks:
            f.write('example : argsAgree [\n' + ',\n'.join(ch) + '] = true := by decide +kernel\n\n')
        f.write('end BT.Conformance\n')
main()
