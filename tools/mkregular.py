#!/usr/bin/env python3
"""Generates lean/Verif/Py/RegularLibrary.lean from the like proofs in lean/Verif/Props/PrettyprintLibrary.lean."""
import os, re
ROOT = os.path.dirname(os.path.dirname(os.path.abspath(__file__)))
t = open(ROOT + '/lean/Verif/Props/PrettyprintLibrary.lean').read()
a = t.index('namespace Dmr.Hytera'); b = t.index('end Dmr.Motorola') + len('end Dmr.Motorola')
body = t[a:b].replace('noDict', 'regular')
open(ROOT + '/lean/Verif/Py/RegularLibrary.lean', 'w').write('''import Verif.Py.Regular
import Verif.Model.Tools.PyView
/-
Generated by tools/mkregular.py: all objects of the library have the attributes that constructors assign.
-/

open Dmr.Py.Graph

''' + body + '\n')
