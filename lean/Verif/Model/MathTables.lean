/- Generated by tools/gen_math_tables.py from /repo/src/math/mod.rs; do not edit by hand. -/
import Verif.Model.Base

namespace Polymers.math

variable {α : Type} [Neg α] [OfScientific α]

/-- `src/math/mod.rs` lines 115-131: `coefficients`. -/
def bessel_i0_small : List α :=
  [1.0,
   2.499999999999999e-1,
   2.777777777777822e-2,
   1.736111111110237e-3,
   6.944444444533525e-5,
   1.929012345132199e-6,
   3.936759911025107e-8,
   6.151186727044392e-10,
   7.594070020589734e-12,
   7.593897933698363e-14,
   6.277677736362926e-16,
   4.347097041532722e-18,
   2.634177426901091e-20,
   1.139430377448228e-22,
   9.079269200856248e-25]

/-- `src/math/mod.rs` lines 137-160: `coefficients`. -/
def bessel_i0_medium : List α :=
  [3.98942280401425e-1,
   4.986778506049619e-2,
   2.805062339283126e-2,
   2.922112251660478e-2,
   4.442072994936595e-2,
   1.309705746058567e-1,
   (-3.35052280231727),
   2.330257115835147e2,
   (-1.133663506971723e4),
   4.240576743178673e5,
   (-1.231570285956987e7),
   2.802319381552675e8,
   (-5.018839997137779e9),
   7.080292430151091e10,
   (-7.842610821248111e11),
   6.768257378540965e12,
   (-4.49034849696138e13),
   2.241552399669589e14,
   (-8.134264678656593e14),
   2.023910973916877e15,
   (-3.086757152953708e15),
   2.17587543863819e15]

/-- `src/math/mod.rs` lines 165-171: `coefficients`. -/
def bessel_i0_large : List α :=
  [3.989422804014329e-1,
   4.986778504914345e-2,
   2.805063089165061e-2,
   2.921790968539151e-2,
   4.533712087625794e-2]

/-- `src/math/mod.rs` lines 181-195: `coefficients`. -/
def bessel_i1_small : List α :=
  [8.333333333333333e-2,
   6.944444444444341e-3,
   3.472222222225921e-4,
   1.157407407354987e-5,
   2.75573192625479e-7,
   4.920949692800671e-9,
   6.834657311305621e-11,
   7.593969849687574e-13,
   6.904822652741917e-15,
   5.220157095351373e-17,
   3.410720494727771e-19,
   1.625212890947171e-21,
   1.33289892816229e-23]

/-- `src/math/mod.rs` lines 206-229: `coefficients`. -/
def bessel_i1_medium : List α :=
  [3.989422804014406e-1,
   (-1.496033551613111e-1),
   (-4.675104253598537e-2),
   (-4.090895951581637e-2),
   (-5.719036414430205e-2),
   (-1.528189554374492e-1),
   3.458284470977172e0,
   (-2.426181371595021e2),
   1.17878586599344e4,
   (-4.404655582443487e5),
   1.277677779341446e7,
   (-2.903390398236656e8),
   5.192386898222206e9,
   (-7.313784438967834e10),
   8.087824484994859e11,
   (-6.967602516005787e12),
   4.614040809616582e13,
   (-2.298849639457172e14),
   8.325554073334618e14,
   (-2.067285045778906e15),
   3.146401654361325e15,
   (-2.213318202179221e15)]

/-- `src/math/mod.rs` lines 234-240: `coefficients`. -/
def bessel_i1_large : List α :=
  [3.989422804014314e-1,
   (-1.496033551467584e-1),
   (-4.675105322571775e-2),
   (-4.090421597376992e-2),
   (-5.843630344778927e-2)]

/-- `src/math/mod.rs` lines 295-794: the arms `0_u8 ..= 99_u8` of the `match` in `erfcx_helper`.
Arm `i` is `let t = 2.0*z - s; c0 + (c1 + (c2 + (c3 + (c4 + (c5 + c6*t)*t)*t)*t)*t)*t`; its row is
`(s, [c0, ..., c6])`.  The generator checks that every arm has this shape. -/
def erfcx_table : List (α × List α) :=
  [(1.0, [7.087803245410644e-4, 7.12340910470263e-4, 3.5779077297597742e-6, 1.7403143962587938e-8, 8.171066004730779e-11, 3.688502236043496e-13, 1.5917038551111112e-15]),
   (3.0, [2.1479143208285143e-3, 7.268640236737999e-4, 3.6843175430938994e-6, 1.80718412721492e-8, 8.549644929604033e-11, 3.885203751853429e-13, 1.6868473576888889e-15]),
   (5.0, [3.6165255935630175e-3, 7.418209232355551e-4, 3.794831995752824e-6, 1.8771627021793087e-8, 8.948471512241509e-11, 4.093585851777244e-13, 1.787206146488889e-15]),
   (7.0, [5.115498386003198e-3, 7.572284073479166e-4, 3.90964257267357e-6, 1.950416870430047e-8, 9.3687503063179e-11, 4.3143925959079665e-13, 1.8939926435555556e-15]),
   (9.0, [6.645751317267305e-3, 7.731040605444745e-4, 4.028951058939944e-6, 2.0271233238288382e-8, 9.81176313217091e-11, 4.548420740601775e-13, 2.007635221333333e-15]),
   (11.0, [8.208238997024121e-3, 7.894662961188171e-4, 4.152970155262265e-6, 2.1074693344544657e-8, 1.0278874108587318e-10, 4.796520139061334e-13, 2.1285907413333335e-15]),
   (13.0, [9.803953727535219e-3, 8.063344010834284e-4, 4.281924132973699e-6, 2.1916534346907168e-8, 1.0771535136565471e-10, 5.059597262369282e-13, 2.2573462684444446e-15]),
   (15.0, [1.1433927298290302e-2, 8.237285838319657e-4, 4.416049531176544e-6, 2.2798861426211987e-8, 1.129129174587924e-10, 5.338618936581688e-13, 2.3944209546666666e-15]),
   (17.0, [1.3099232878814654e-2, 8.416700246790696e-4, 4.555595898845751e-6, 2.3723907357214174e-8, 1.1839789326602696e-10, 5.634616306755024e-13, 2.5403679644444446e-15]),
   (19.0, [1.4800987015587536e-2, 8.601809294634594e-4, 4.700826584881687e-6, 2.4694040760197315e-8, 1.2418779768752298e-10, 5.948689037032026e-13, 2.695776456888889e-15]),
   (21.0, [1.654035173939407e-2, 8.792845864124146e-4, 4.852019579300175e-6, 2.571177490088171e-8, 1.3030128534230821e-10, 6.282009758687478e-13, 2.8612737351111112e-15]),
   (23.0, [1.8318536789842393e-2, 8.990054264789172e-4, 5.009468408955337e-6, 2.677977707421807e-8, 1.3675822186304616e-10, 6.635828774535271e-13, 3.0375273884444443e-15]),
   (25.0, [2.0136801964214277e-2, 9.193690873767368e-4, 5.1734830914104276e-6, 2.7900878609710433e-8, 1.435797640280904e-10, 7.011479031104373e-13, 3.2252476e-15]),
   (27.0, [2.1996459598282742e-2, 9.404024815536678e-4, 5.344391150804117e-6, 2.9078085538049375e-8, 1.507884450032973e-10, 7.41038136474992e-13, 3.425189232e-15]),
   (29.0, [2.389887718722632e-2, 9.621338683590018e-4, 5.5225386998049015e-6, 3.0314589961047687e-8, 1.5840826497296334e-10, 7.834050047241445e-13, 3.6381553564444445e-15]),
   (31.0, [2.5845480155298518e-2, 9.845929306782012e-4, 5.708291592005185e-6, 3.161378216916483e-8, 1.664647874552963e-10, 8.28409859287854e-13, 3.864997576888889e-15]),
   (33.0, [2.7837754783474698e-2, 1.0078108563256892e-3, 5.9020366493792216e-6, 3.297926355324652e-8, 1.7498524159268457e-10, 8.762245912484253e-13, 4.106620648888889e-15]),
   (35.0, [2.9877251304899308e-2, 1.031820424505735e-3, 6.104182969716206e-6, 3.441486035954272e-8, 1.839986307293409e-10, 9.270322736636504e-13, 4.3639844053333335e-15]),
   (37.0, [3.196558717859645e-2, 1.0566560976716574e-3, 6.315163319241458e-6, 3.592463833952192e-8, 1.9353584758781173e-10, 9.810278385988926e-13, 4.6381060817777776e-15]),
   (39.0, [3.410445055258834e-2, 1.0823541191350532e-3, 6.535435615955393e-6, 3.7512918348533524e-8, 2.0362979635817883e-10, 1.0384187833037281e-12, 4.930062526222222e-15]),
   (41.0, [3.6295603928292425e-2, 1.1089526167995269e-3, 6.765484509551836e-6, 3.918429294991359e-8, 2.1431552202133775e-10, 1.0994259106646732e-12, 5.240994910222222e-15]),
   (43.0, [3.854088803884051e-2, 1.136491713417542e-3, 7.005823064124631e-6, 4.0943644083718584e-8, 2.2563034723692883e-10, 1.1642841011361993e-12, 5.572109287111111e-15]),
   (45.0, [4.084222595478596e-2, 1.1650136437945675e-3, 7.2569945502343e-6, 4.279616186185504e-8, 2.3761401711005023e-10, 1.2332431172381557e-12, 5.924680236444444e-15]),
   (47.0, [4.320162743154022e-2, 1.1945628793917271e-3, 7.51957435328492e-6, 4.474736455396099e-8, 2.503088521647295e-10, 1.3065684400300477e-12, 6.300053285333334e-15]),
   (49.0, [4.562119351381047e-2, 1.225186260806753e-3, 7.794172005555192e-6, 4.680311983095446e-8, 2.6375990983978426e-10, 1.384542137097712e-12, 6.6996477404444446e-15]),
   (51.0, [4.8103121413299865e-2, 1.2569331386432195e-3, 8.081433349636768e-6, 4.896966733568202e-8, 2.7801515481905746e-10, 1.4674637611609885e-12, 7.124958935111111e-15]),
   (53.0, [5.064970967698334e-2, 1.2898555233099055e-3, 8.38204284145688e-6, 5.125364265255184e-8, 2.9312563849675507e-10, 1.5556512782814827e-12, 7.577560782222223e-15]),
   (55.0, [5.3263363664388864e-2, 1.3240082443256975e-3, 8.696726001500767e-6, 5.36621027503968e-8, 3.09145687866348e-10, 1.6494420240828494e-12, 8.059107964444444e-15]),
   (57.0, [5.594660135350001e-2, 1.359449119740819e-3, 9.026252023301638e-6, 5.6202552975056696e-8, 3.261331041050314e-10, 1.7491936862246368e-12, 8.571338168888888e-15]),
   (59.0, [5.8702059496154084e-2, 1.3962391363223647e-3, 9.371436548731279e-6, 5.8882975670265285e-8, 3.4414937110591756e-10, 1.855285310975186e-12, 9.11607367111111e-15]),
   (61.0, [6.1532500145144775e-2, 1.4344426411912014e-3, 9.733144620101681e-6, 6.171186050734718e-8, 3.63259874182953e-10, 1.9681183310134517e-12, 9.69522384e-15]),
   (63.0, [6.444081757665329e-2, 1.4741275456383132e-3, 1.0112293819576438e-5, 6.469823660593325e-8, 3.8353412915303665e-10, 2.088117611438512e-12, 1.031078448e-14]),
   (65.0, [6.743004563313039e-2, 1.515365541891654e-3, 1.0509857606888329e-5, 6.785170652936334e-8, 4.050460219481114e-10, 2.2157325110542536e-12, 1.0964842115555555e-14]),
   (67.0, [7.050336551333886e-2, 1.558232333649571e-3, 1.092686886686523e-5, 7.118248223961351e-8, 4.2787405890153386e-10, 2.351437952227442e-12, 1.1659571751111111e-14]),
   (69.0, [7.36641140379446e-2, 1.602807881243882e-3, 1.1364423678778208e-5, 7.470142309742318e-8, 4.521016277747649e-10, 2.495735500408857e-12, 1.2397238257777777e-14]),
   (71.0, [7.691579242081956e-2, 1.6491766623447889e-3, 1.1823685320041301e-5, 7.842007599378154e-8, 4.778172695691648e-10, 2.6491544403815725e-12, 1.3180196462222222e-14]),
   (73.0, [8.026207557809462e-2, 1.6974279491709504e-3, 1.2305888517309891e-5, 8.235071769897904e-8, 5.051149610985711e-10, 2.81225284976269e-12, 1.4010889635555555e-14]),
   (75.0, [8.370682200898036e-2, 1.7476561032212657e-3, 1.2812343958540764e-5, 8.650639951503644e-8, 5.340944082386946e-10, 2.9856186620887555e-12, 1.489185159111111e-14]),
   (77.0, [8.725408428446171e-2, 1.7999608886001962e-3, 1.3344443080089493e-5, 9.0900994316429e-8, 5.648613497261646e-10, 3.169870708003396e-12, 1.5825697795555556e-14]),
   (79.0, [9.090812018217274e-2, 1.85444780506577e-3, 1.390366314342612e-5, 9.554924606254991e-8, 5.975278712524205e-10, 3.36565973660991e-12, 1.6815130613333334e-14]),
   (81.0, [9.467340450807549e-2, 1.9112284419887304e-3, 1.4491572616545005e-5, 1.0046682186333614e-7, 6.3221272959791e-10, 3.573669397558913e-12, 1.786293159111111e-14]),
   (83.0, [9.855464164800445e-2, 1.9704208544725622e-3, 1.5109836875625445e-5, 1.0567036667675984e-7, 6.690416864001935e-10, 3.794617185082434e-12, 1.897195904e-14]),
   (85.0, [1.025567788947009e-1, 2.0321499629472857e-3, 1.576022424296218e-5, 1.1117756071353507e-7, 7.081478511009766e-10, 4.029255327663256e-12, 2.0145143075555556e-14]),
   (87.0, [1.0668502059865094e-1, 2.096547977614873e-3, 1.6444612377624982e-5, 1.1700717962026153e-7, 7.496720325093842e-10, 4.2783716186085925e-12, 2.138547936e-14]),
   (89.0, [1.1094484319386444e-1, 2.163754849190817e-3, 1.7164995035719656e-5, 1.2317915750735938e-7, 7.937630983149963e-10, 4.542790176310636e-12, 2.2696025653333333e-14]),
   (91.0, [1.1534201115268805e-1, 2.233918747454642e-3, 1.7923489217504226e-5, 1.2971465288245997e-7, 8.405783418038907e-10, 4.8233721206418025e-12, 2.4079890062222222e-14]),
   (93.0, [1.1988259392684095e-1, 2.307196569191869e-3, 1.8722342718958937e-5, 1.3663611754337958e-7, 8.902838548849328e-10, 5.121016156922585e-12, 2.554022711111111e-14]),
   (95.0, [1.2457298393509812e-1, 2.3837544771809576e-3, 1.956394210571161e-5, 1.439673684773947e-7, 9.430549064645925e-10, 5.436659058313422e-12, 2.708022592e-14]),
   (97.0, [1.2941991566142438e-1, 2.463768471950886e-3, 2.045082112747588e-5, 1.5173366280523906e-7, 9.990763250638903e-10, 5.771276031135163e-12, 2.8703099555555555e-14]),
   (99.0, [1.3443048593088697e-1, 2.5474249981080823e-3, 2.1385669591362916e-5, 1.5996177579900442e-7, 1.0585428844575133e-9, 6.125880953678788e-12, 3.041208014222222e-14]),
   (101.0, [1.3961217543434562e-1, 2.6349215871051762e-3, 2.2371342712572568e-5, 1.6868008199296823e-7, 1.1216596910444997e-9, 6.501526475309089e-12, 3.221039450666667e-14]),
   (103.0, [1.44972871576738e-1, 2.726467538398244e-3, 2.341087096105095e-5, 1.7791863939526378e-7, 1.1886425714330958e-9, 6.8993039665054284e-12, 3.4101266222222225e-14]),
   (105.0, [1.5052089272774619e-1, 2.8222846410136237e-3, 2.4507470422713398e-5, 1.8770927679626137e-7, 1.259718458758337e-9, 7.320343304922983e-12, 3.6087889048888887e-14]),
   (107.0, [1.562650139577461e-1, 2.9226079376196627e-3, 2.566455369376845e-5, 1.9808568415654462e-7, 1.3351257759815557e-9, 7.765812489104676e-12, 3.817342003555556e-14]),
   (109.0, [1.6221449434620738e-1, 3.0276865332726477e-3, 2.6885741326534563e-5, 2.0908350604346383e-7, 1.415114814424073e-9, 8.236917066597432e-12, 4.036095745777778e-14]),
   (111.0, [1.683791059541213e-1, 3.1377844510793083e-3, 2.8174873844911173e-5, 2.2074043807045782e-7, 1.499948105599609e-9, 8.734899366193081e-12, 4.265352897777778e-14]),
   (113.0, [1.747691645565937e-1, 3.2531815370903066e-3, 2.9536024347344365e-5, 2.3309632627767074e-7, 1.5899007843582445e-9, 9.261037523542736e-12, 4.5054073102222224e-14]),
   (115.0, [1.8139556223643702e-1, 3.3741744168097e-3, 3.09735117147095e-5, 2.461932693759229e-7, 1.6852609412267751e-9, 9.81664429428549e-12, 4.756541809777778e-14]),
   (117.0, [1.8826980194443665e-1, 3.5010775057740316e-3, 3.249191444001427e-5, 2.600757237588632e-7, 1.7863299617388377e-9, 1.0403065638343878e-11, 5.019026583111111e-14]),
   (119.0, [1.9540403413693969e-1, 3.6342240767211326e-3, 3.4096085096200906e-5, 2.7479061117017636e-7, 1.8934228504790033e-9, 1.1021679075323599e-11, 5.293117173333333e-14]),
   (121.0, [2.0281109560651886e-1, 3.77396738593236e-3, 3.579116545759241e-5, 2.9038742889416174e-7, 2.0068685374849e-9, 1.1673891799578381e-11, 5.5790523093333335e-14]),
   (123.0, [2.1050455062669335e-1, 3.920681861392565e-3, 3.7582602289680105e-5, 3.0691836231886877e-7, 2.1270101645763676e-9, 1.2361138551062899e-11, 5.877052016e-14]),
   (125.0, [2.1849873453703333e-1, 4.074764355468959e-3, 3.947616382098671e-5, 3.244383997013992e-7, 2.254205349151868e-9, 1.3084879235290859e-11, 6.187315326222222e-14]),
   (127.0, [2.268087999004323e-1, 4.236635464862852e-3, 4.1477956909656896e-5, 3.430054489450281e-7, 2.3888264229264067e-9, 1.3846596292818514e-11, 6.510018375111112e-14]),
   (129.0, [2.3545076536988704e-1, 4.406740920636517e-3, 4.35944449162247e-5, 3.6268045617760415e-7, 2.53126064308532e-9, 1.4647791812837902e-11, 6.845312263111111e-14]),
   (131.0, [2.4444156740777434e-1, 4.585553051160578e-3, 4.5832466292683086e-5, 3.835275259003303e-7, 2.6819103733055602e-9, 1.5489984390884758e-11, 7.193320636444444e-14]),
   (133.0, [2.5379911500634267e-1, 4.773572320865003e-3, 4.8199253896534185e-5, 4.0561404245564733e-7, 2.8411932320871164e-9, 1.637470573645832e-11, 7.554137982222222e-14]),
   (135.0, [2.6354234756393613e-1, 4.9713289477083785e-3, 5.070245503693037e-5, 4.2901079254268185e-7, 3.009542205890048e-9, 1.730349702534734e-11, 7.927827336888888e-14]),
   (137.0, [2.7369129607732345e-1, 5.179384602305264e-3, 5.33501522583266e-5, 4.537920884886502e-7, 3.187405724581438e-9, 1.827790501024511e-11, 8.314418236444444e-14]),
   (139.0, [2.8426714781640317e-1, 5.398334191669514e-3, 5.615088486525581e-5, 4.800358919649474e-7, 3.3752476967570798e-9, 1.9299477888083468e-11, 8.713904913777777e-14]),
   (141.0, [2.952923146534852e-1, 5.6288077305420795e-3, 5.911367118991331e-5, 5.078239378174484e-7, 3.5735475025851714e-9, 2.036976093701707e-11, 9.126244261333333e-14]),
   (143.0, [3.067905052252884e-1, 5.87147230327454e-3, 6.224803160219768e-5, 5.372418576620094e-7, 3.782799941896024e-9, 2.149029193044454e-11, 9.551353918222223e-14]),
   (145.0, [3.187868011117332e-1, 6.12703411923391e-3, 6.556401225970764e-5, 5.683793028783774e-7, 4.003515135339238e-9, 2.2662596341239295e-11, 9.989110976e-14]),
   (147.0, [3.3130773722152623e-1, 6.396240664679808e-3, 6.90722095929424e-5, 6.013300666188594e-7, 4.236218376588347e-9, 2.3888182347073697e-11, 1.0439349811555555e-13]),
   (149.0, [3.4438138658041334e-1, 6.6798829540414e-3, 7.278379551860356e-5, 6.36192204432288e-7, 4.481449933651445e-9, 2.5168535651285476e-11, 1.0901861383111111e-13]),
   (151.0, [3.5803744972380175e-1, 6.978797883488269e-3, 7.671054337145482e-5, 6.730681530891739e-7, 4.739764797584523e-9, 2.650511414114305e-11, 1.1376390933333332e-13]),
   (153.0, [3.7230734890119727e-1, 7.293870689646138e-3, 8.086485454267072e-5, 7.120648471806269e-7, 5.0117323769745884e-9, 2.7899342394100073e-11, 1.1862637614222222e-13]),
   (155.0, [3.872243273055545e-1, 7.62603751625498e-3, 8.525978581000461e-5, 7.532938330517133e-7, 5.297936136838812e-9, 2.935260605416409e-11, 1.2360253370666666e-13]),
   (157.0, [4.028235535461694e-1, 7.976288091502973e-3, 8.990907734243825e-5, 7.968713796195619e-7, 5.5989731807360405e-9, 3.0866246101464866e-11, 1.2868841946666668e-13]),
   (159.0, [4.191422315891379e-1, 8.345668518695046e-3, 9.482718135925016e-5, 8.429185856178314e-7, 5.915453775108349e-9, 3.244155303434747e-11, 1.338795794311111e-13]),
   (161.0, [4.3621971639463786e-1, 8.73528418282895e-3, 1.00029291420668e-4, 8.915614828021988e-7, 6.24800081507886e-9, 3.407976098345888e-11, 1.3917107176888888e-13]),
   (163.0, [4.540976354853433e-1, 9.146302775554824e-3, 1.0553137232446167e-4, 9.429311346463863e-7, 6.597249231221996e-9, 3.5782041795476564e-11, 1.4455745872e-13]),
   (165.0, [4.728200166851233e-1, 9.579957440886046e-3, 1.1135019058000067e-4, 9.971637300550903e-7, 6.963845336995697e-9, 3.7549499088161346e-11, 1.500328071288889e-13]),
   (167.0, [4.924334222717984e-1, 1.0037550043909497e-2, 1.1750334542845235e-4, 1.0544006716188967e-6, 7.348446116824222e-9, 3.938316232643575e-11, 1.5559069118222223e-13]),
   (169.0, [5.129870897920926e-1, 1.0520454564612427e-2, 1.2400930037494997e-4, 1.1147886579371265e-6, 7.75171845505687e-9, 4.1283980931872625e-11, 1.612241968e-13]),
   (171.0, [5.345330797910137e-1, 1.1030120618800727e-2, 1.308874151957227e-4, 1.1784797595374515e-6, 8.174338306304482e-9, 4.3252818449517084e-11, 1.669259264e-13]),
   (173.0, [5.57126430711693e-1, 1.1568077107929736e-2, 1.3815797838036652e-4, 1.2456314879260905e-6, 8.616989807896932e-9, 4.529044681153965e-11, 1.7268801084444443e-13]),
   (175.0, [5.808253212251933e-1, 1.2135935999503878e-2, 1.458422399666584e-4, 1.316406857309571e-6, 9.080364335510602e-9, 4.739754071312462e-11, 1.785021160888889e-13]),
   (177.0, [6.056912402529337e-1, 1.273539623952555e-2, 1.5396244472258864e-4, 1.3909744385382817e-6, 9.565159503230623e-9, 4.957467212766904e-11, 1.8435945564444444e-13]),
   (179.0, [6.317891649471572e-1, 1.3368247798287032e-2, 1.6254186562762076e-4, 1.4695084048334055e-6, 1.0072078109604152e-8, 5.182230499568071e-11, 1.9025081422222223e-13]),
   (181.0, [6.591877468972532e-1, 1.4036375850601992e-2, 1.7160483760259707e-4, 1.5521885688723188e-6, 1.060182703153528e-8, 5.414079010583752e-11, 1.9616655146666667e-13]),
   (183.0, [6.879595068317443e-1, 1.4741765091365868e-2, 1.8117679143520433e-4, 1.6392004108230584e-6, 1.1155116068018043e-8, 5.653036019492569e-11, 2.0209663662222222e-13]),
   (185.0, [7.181810380872997e-1, 1.5486504187117112e-2, 1.9128428784550924e-4, 1.7307350969359975e-6, 1.1732656736113608e-8, 5.899112528756384e-11, 2.0803065333333334e-13]),
   (187.0, [7.499332191172625e-1, 1.6272790364044783e-2, 2.0195505163377912e-4, 1.8269894883203348e-6, 1.2335161021630225e-8, 6.152306831216908e-11, 2.1395783431111112e-13]),
   (189.0, [7.833014353128349e-1, 1.710293413265243e-2, 2.1321800585063328e-4, 1.9281661395543912e-6, 1.2963340087354342e-8, 6.412604099806635e-11, 2.1986708942222223e-13]),
   (191.0, [8.183758104102381e-1, 1.7979364149044223e-2, 2.251033059275313e-4, 2.0344732868018175e-6, 1.361790294183995e-8, 6.679976008397248e-11, 2.257470126222222e-13]),
   (193.0, [8.552514477568512e-1, 1.890463221254756e-2, 2.3764237370371255e-4, 2.146124825130639e-6, 1.4299555071870523e-8, 6.954380386469418e-11, 2.3158593688888887e-13]),
   (195.0, [8.940286817084994e-1, 1.98814183991272e-2, 2.5086793128395994e-4, 2.2633402747585233e-6, 1.500899704211653e-8, 7.235760907504394e-11, 2.3737194737777777e-13]),
   (197.0, [9.348133394287079e-1, 2.091253632978037e-2, 2.648140346599848e-4, 2.3863447359754924e-6, 1.5746923065472183e-8, 7.524046814172015e-11, 2.4309291271111114e-13]),
   (199.0, [9.777170133588503e-1, 2.200093857283048e-2, 2.795161070268238e-4, 2.5153688325245316e-6, 1.651401954782282e-8, 7.819152682936823e-11, 2.4873652355555557e-13])]

end Polymers.math
