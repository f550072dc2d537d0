S='Argo.Signalk.'
def k(pid,status,thms,note=''): c(pid,status,[S+x for x in thms],note)
k('C53','partial',['C53_delta_partial','C53_false','C53_shipped','C53_replace'],'Full for the shipped mapping file (C53_shipped). In general the conditions of a group with a fieldset are not checked by the code (C53_false).')
k('C54','proved',['C54_once'])
k('C55','proved',['C55_reported','C55_exact','C55_number','C55_number_range','C55_number_malformed'])
k('C56','partial',['C56_order_partial','C56_separate','C56_shipped','C56_false'],'Proved without fieldsets, with one separate fieldset, and for the shipped file; false in general.')
k('C57','proved',['C57_update'])
k('C58','partial',['C58_exact','C58_conjunction_partial','C58_false_unknown','C58_false_text'],'Exact characterisation proved; the conjunction holds only with known operations, numbers compare as text.')
k('C59','partial',['C59_repetition_partial','C59_delta_partial','C59_shipped','C59_limit','C59_false'],'Holds when the field index is below the group size; otherwise only the first repetition is selected. End to end for the shipped files: C59_shipped.')
k('C60','partial',['C60_exact','C60_delta_partial','C60_shipped','C60_false'],'Exact panic condition; no panic for parsed messages with the shipped files.')
k('C61','partial',['C61_any','C61_text','C61_lookup','C61_utc_partial','C61_shipped','C61_false_zone','C61_false_empty'],'Right only when the machine runs in UTC; values that are not times give empty texts.')
k('C62','proved',['C62_merge'])
k('C102','partial',['C102_partial','C102_false'],'49 of the 51 groups have an effect; the two for PGN 130820 never do, because their conditions compare names with numbers.')
