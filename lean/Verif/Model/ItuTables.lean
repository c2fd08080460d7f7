/-!
# ITU tables of `pycomlink/processing/k_R_relation.py`

Generated by `tools/gen_itu.py` from the decimal literals in the source. Entries are in units
of `10^-7` (every literal is an exact multiple).
-/

namespace Verif.KR

/-- k_R_relation.py L271-L379 `ITU_table_2005`, in units of 1e-7.
Row order: frequency, k_H, k_V, alpha_H, alpha_V. -/
def rawTable2005 : List (List Nat) := [
    [10000000, 15000000, 20000000, 25000000, 30000000, 35000000, 40000000, 45000000, 50000000,
     55000000, 60000000, 70000000, 80000000, 90000000, 100000000, 110000000, 120000000,
     130000000, 140000000, 150000000, 160000000, 170000000, 180000000, 190000000, 200000000,
     210000000, 220000000, 230000000, 240000000, 250000000, 260000000, 270000000, 280000000,
     290000000, 300000000, 310000000, 320000000, 330000000, 340000000, 350000000, 360000000,
     370000000, 380000000, 390000000, 400000000, 410000000, 420000000, 430000000, 440000000,
     450000000, 460000000, 470000000, 480000000, 490000000, 500000000, 510000000, 520000000,
     530000000, 540000000, 550000000, 560000000, 570000000, 580000000, 590000000, 600000000,
     610000000, 620000000, 630000000, 640000000, 650000000, 660000000, 670000000, 680000000,
     690000000, 700000000, 710000000, 720000000, 730000000, 740000000, 750000000, 760000000,
     770000000, 780000000, 790000000, 800000000, 810000000, 820000000, 830000000, 840000000,
     850000000, 860000000, 870000000, 880000000, 890000000, 900000000, 910000000, 920000000,
     930000000, 940000000, 950000000, 960000000, 970000000, 980000000, 990000000, 1000000000],
    [259, 443, 847, 1321, 1390, 1155, 1071, 1340, 2162, 3909, 7056, 19150, 41150, 75350, 121700,
     177200, 238600, 304100, 373800, 448100, 528200, 614600, 707800, 808400, 916400, 1032000,
     1155000, 1286000, 1425000, 1571000, 1724000, 1884000, 2051000, 2224000, 2403000, 2588000,
     2778000, 2972000, 3171000, 3374000, 3580000, 3789000, 4001000, 4215000, 4431000, 4647000,
     4865000, 5084000, 5302000, 5521000, 5738000, 5956000, 6172000, 6386000, 6600000, 6811000,
     7020000, 7228000, 7433000, 7635000, 7835000, 8032000, 8226000, 8418000, 8606000, 8791000,
     8974000, 9153000, 9328000, 9501000, 9670000, 9836000, 9999000, 10159000, 10315000, 10468000,
     10618000, 10764000, 10908000, 11048000, 11185000, 11320000, 11451000, 11579000, 11704000,
     11827000, 11946000, 12063000, 12177000, 12289000, 12398000, 12504000, 12607000, 12708000,
     12807000, 12903000, 12997000, 13089000, 13179000, 13266000, 13351000, 13434000, 13515000,
     13594000, 13671000],
    [308, 574, 998, 1464, 1942, 2346, 2461, 2347, 2428, 3115, 4878, 14250, 34500, 66910, 112900,
     173100, 245500, 326600, 412600, 500800, 589900, 679700, 770800, 864200, 961100, 1063000,
     1170000, 1284000, 1404000, 1533000, 1669000, 1813000, 1964000, 2124000, 2291000, 2465000,
     2646000, 2833000, 3026000, 3224000, 3427000, 3633000, 3844000, 4058000, 4274000, 4492000,
     4712000, 4932000, 5153000, 5375000, 5596000, 5817000, 6037000, 6255000, 6472000, 6687000,
     6901000, 7112000, 7321000, 7527000, 7730000, 7931000, 8129000, 8324000, 8515000, 8704000,
     8889000, 9071000, 9250000, 9425000, 9598000, 9767000, 9932000, 10094000, 10253000, 10409000,
     10561000, 10711000, 10857000, 11000000, 11139000, 11276000, 11410000, 11541000, 11668000,
     11793000, 11915000, 12034000, 12151000, 12265000, 12376000, 12484000, 12590000, 12694000,
     12795000, 12893000, 12989000, 13083000, 13175000, 13265000, 13352000, 13437000, 13520000,
     13601000, 13680000],
    [9691000, 10185000, 10664000, 11209000, 12322000, 14189000, 16009000, 16948000, 16969000,
     16499000, 15900000, 14810000, 13905000, 13155000, 12571000, 12140000, 11825000, 11586000,
     11396000, 11233000, 11086000, 10949000, 10818000, 10691000, 10568000, 10447000, 10329000,
     10214000, 10101000, 9991000, 9884000, 9780000, 9679000, 9580000, 9485000, 9392000, 9302000,
     9214000, 9129000, 9047000, 8967000, 8890000, 8816000, 8743000, 8673000, 8605000, 8539000,
     8476000, 8414000, 8355000, 8297000, 8241000, 8187000, 8134000, 8084000, 8034000, 7987000,
     7941000, 7896000, 7853000, 7811000, 7771000, 7731000, 7693000, 7656000, 7621000, 7586000,
     7552000, 7520000, 7488000, 7458000, 7428000, 7400000, 7372000, 7345000, 7318000, 7293000,
     7268000, 7244000, 7221000, 7199000, 7177000, 7156000, 7135000, 7115000, 7096000, 7077000,
     7058000, 7040000, 7023000, 7006000, 6990000, 6974000, 6959000, 6944000, 6929000, 6915000,
     6901000, 6888000, 6875000, 6862000, 6850000, 6838000, 6826000, 6815000],
    [8592000, 8957000, 9490000, 10085000, 10688000, 11387000, 12476000, 13987000, 15317000,
     15882000, 15728000, 14745000, 13797000, 12895000, 12156000, 11617000, 11216000, 10901000,
     10646000, 10440000, 10273000, 10137000, 10025000, 9930000, 9847000, 9771000, 9700000,
     9630000, 9561000, 9491000, 9421000, 9349000, 9277000, 9203000, 9129000, 9055000, 8981000,
     8907000, 8834000, 8761000, 8690000, 8621000, 8552000, 8486000, 8421000, 8357000, 8296000,
     8236000, 8179000, 8123000, 8069000, 8017000, 7967000, 7918000, 7871000, 7826000, 7783000,
     7741000, 7700000, 7661000, 7623000, 7587000, 7552000, 7518000, 7486000, 7454000, 7424000,
     7395000, 7366000, 7339000, 7313000, 7287000, 7262000, 7238000, 7215000, 7193000, 7171000,
     7150000, 7130000, 7110000, 7091000, 7073000, 7055000, 7038000, 7021000, 7004000, 6988000,
     6973000, 6958000, 6943000, 6929000, 6915000, 6902000, 6889000, 6876000, 6864000, 6852000,
     6840000, 6828000, 6817000, 6806000, 6796000, 6785000, 6775000, 6765000]]

/-- k_R_relation.py L381-L389 `ITU_table_2003`, in units of 1e-7, same row order. -/
def rawTable2003 : List (List Nat) := [
    [10000000, 20000000, 40000000, 60000000, 70000000, 80000000, 100000000, 120000000, 150000000,
     200000000, 250000000, 300000000, 350000000, 400000000, 450000000, 500000000, 600000000,
     700000000, 800000000, 900000000, 1000000000],
    [387, 2000, 6000, 18000, 30000, 45000, 101000, 188000, 367000, 751000, 1240000, 1870000,
     2630000, 3500000, 4420000, 5360000, 7070000, 8510000, 9750000, 10600000, 11200000],
    [352, 1000, 6000, 16000, 26000, 40000, 89000, 168000, 335000, 691000, 1130000, 1670000,
     2330000, 3100000, 3930000, 4790000, 6420000, 7840000, 9060000, 9990000, 10600000],
    [9120000, 9630000, 11210000, 13080000, 13320000, 13270000, 12760000, 12170000, 11540000,
     10990000, 10610000, 10210000, 9790000, 9390000, 9030000, 8730000, 8260000, 7930000, 7690000,
     7530000, 7430000],
    [8800000, 9230000, 10750000, 12650000, 13120000, 13100000, 12640000, 12000000, 11280000,
     10650000, 10300000, 10000000, 9630000, 9290000, 8970000, 8680000, 8240000, 7930000, 7690000,
     7540000, 7440000]]

end Verif.KR
